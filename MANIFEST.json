{
 "claims": [
  {
   "property": "C01",
   "status": "proved",
   "theorems": [
    "Verif.Props.C01_align"
   ],
   "note": ""
  },
  {
   "property": "C02",
   "status": "proved",
   "theorems": [
    "Verif.Props.C02_required_bits"
   ],
   "note": ""
  },
  {
   "property": "C03",
   "status": "proved",
   "theorems": [
    "Verif.Props.C03_log2"
   ],
   "note": ""
  },
  {
   "property": "C04",
   "status": "proved",
   "theorems": [
    "Verif.Props.C04_set_get"
   ],
   "note": ""
  },
  {
   "property": "C05",
   "status": "proved",
   "theorems": [
    "Verif.Props.C05_page_refines_list"
   ],
   "note": ""
  },
  {
   "property": "C06",
   "status": "proved",
   "theorems": [
    "Verif.Props.C06_room_exact"
   ],
   "note": ""
  },
  {
   "property": "C07",
   "status": "partial",
   "theorems": [
    "Verif.Props.C07_no_corruption_partial",
    "Verif.Props.C07_full_page_refuted",
    "Verif.Props.C07_empty_row",
    "Verif.Props.C07_survive_iff"
   ],
   "note": "False as stated: an empty row on a page without room for its slot overwrites stored data (C07_full_page_refuted). C07_no_corruption_partial covers every other call; C07_empty_row says exactly what adding an empty row does on every reachable page (panic, or which bytes of which rows change to what), C07_survive_iff exactly when the earlier rows survive."
  },
  {
   "property": "C08",
   "status": "partial",
   "theorems": [
    "Verif.Props.C08_remove_insert_partial",
    "Verif.Props.C08_empty_row",
    "Verif.Props.C08_full_page_refuted"
   ],
   "note": "False as stated for the empty row on a page without room for its slot (C08_full_page_refuted). C08_remove_insert_partial covers every other call; C08_empty_row describes the empty row on every reachable page exactly."
  },
  {
   "property": "C09",
   "status": "proved",
   "theorems": [
    "Verif.Props.C09_rows_aligned"
   ],
   "note": ""
  },
  {
   "property": "C10",
   "status": "proved",
   "theorems": [
    "Verif.Props.C10_bad_calls_refused"
   ],
   "note": ""
  },
  {
   "property": "C11",
   "status": "proved",
   "theorems": [
    "Verif.Props.C11_lexicographic",
    "Verif.Props.C11_total_order"
   ],
   "note": ""
  },
  {
   "property": "C12",
   "status": "partial",
   "theorems": [
    "Verif.Props.C12_prefix_partial",
    "Verif.Props.C12_proper_prefix_refuted"
   ],
   "note": "is_proper_prefix_of compares self.len() with itself and always answers false; the theorems include the refutation. is_prefix_of is proved."
  },
  {
   "property": "C13",
   "status": "proved",
   "theorems": [
    "Verif.Props.C13_resolve",
    "Verif.Props.C13_extract"
   ],
   "note": ""
  },
  {
   "property": "C14",
   "status": "proved",
   "theorems": [
    "Verif.Props.C14_every_component_named",
    "Verif.Props.C14_names_unambiguous"
   ],
   "note": ""
  },
  {
   "property": "C15",
   "status": "proved",
   "theorems": [
    "Verif.Props.C15_parsed_well_formed"
   ],
   "note": ""
  },
  {
   "property": "C16",
   "status": "proved",
   "theorems": [
    "Verif.Props.C16_writable"
   ],
   "note": ""
  },
  {
   "property": "C17",
   "status": "proved",
   "theorems": [
    "Verif.Props.C17_unambiguous"
   ],
   "note": ""
  },
  {
   "property": "C18",
   "status": "proved",
   "theorems": [
    "Verif.Props.C18_layout_new"
   ],
   "note": ""
  },
  {
   "property": "C19",
   "status": "proved",
   "theorems": [
    "Verif.Props.C19_no_overlap"
   ],
   "note": ""
  },
  {
   "property": "C20",
   "status": "proved",
   "theorems": [
    "Verif.Props.C20_aligned"
   ],
   "note": ""
  },
  {
   "property": "C21",
   "status": "partial",
   "theorems": [
    "Verif.Props.C21_nested_alignment_refuted",
    "Verif.Props.C21_nested_alignment_partial",
    "Verif.Props.C21_descending"
   ],
   "note": "False as stated (C21_nested_alignment_refuted): a value of an enum case whose size is no multiple of the alignment shifts later enums. The partial theorem covers every type in which every possible size of a case of an enum is a multiple of the alignments of the cases of the enums stored after it (Smooth); C21_descending gives a sufficient condition without sizes. C111_crooked shows that this condition is exact."
  },
  {
   "property": "C22",
   "status": "proved",
   "theorems": [
    "Verif.Props.C22_size",
    "Verif.Props.C22_size_any"
   ],
   "note": ""
  },
  {
   "property": "C23",
   "status": "proved",
   "theorems": [
    "Verif.Props.C23_inside"
   ],
   "note": ""
  },
  {
   "property": "C24",
   "status": "partial",
   "theorems": [
    "Verif.Props.C24_short_buffer_refuted",
    "Verif.Props.C24_short_buffer_partial",
    "Verif.Props.C24_outside_iff",
    "Verif.Props.C24_keeps_length"
   ],
   "note": "False as stated (C24_short_buffer_refuted): copy_bytes writes past a short buffer. C24_outside_iff characterises it exactly for all types, values and short buffers: every string has a place in the full encoding, and a short buffer is overrun if and only if its end lies inside (or just before) one of the nonempty strings. C24_keeps_length: successful encodings keep the buffer's length. C24_short_buffer_partial covers the fixed part and all types without strings for arbitrary sources."
  },
  {
   "property": "C25",
   "status": "proved",
   "theorems": [
    "Verif.Props.C25_round_trip"
   ],
   "note": ""
  },
  {
   "property": "C26",
   "status": "partial",
   "theorems": [
    "Verif.Props.C26_case_counts_refuted",
    "Verif.Props.C26_single_case_refuted",
    "Verif.Props.C26_case_counts_partial",
    "Verif.Props.C26_checked_iff",
    "Verif.Props.C26_unchecked_iff"
   ],
   "note": "False for case counts that need exactly 8, 16, 32 or 64 tag bits (panic with overflow checks; tag silently not stored without) and, with overflow checks, for single-case enums whose tag of zero bits starts at the end of a full word. C26_checked_iff is exact with overflow checks, for every value: it can be encoded and read back if and only if every tag it has to write has room in its machine word. C26_unchecked_iff is exact without them: encoding always succeeds and keeps inside the announced size; the value is read back from every buffer if and only if every tag has room, and otherwise some tag is read back wrong from some buffer."
  },
  {
   "property": "C27",
   "status": "proved",
   "theorems": [
    "Verif.Props.C27_reencode"
   ],
   "note": ""
  },
  {
   "property": "C28",
   "status": "proved",
   "theorems": [
    "Verif.Props.C28_determined"
   ],
   "note": ""
  },
  {
   "property": "C29",
   "status": "partial",
   "theorems": [
    "Verif.Props.C29_independent_refuted",
    "Verif.Props.C29_always_refuted",
    "Verif.Props.C29_inactive_refuted",
    "Verif.Props.C29_outside_refuted",
    "Verif.Props.C29_inactive_partial"
   ],
   "note": "False as stated (C29_inactive_refuted): the readers never compare the path with the stored tag. The partial theorem: only paths and kinds that exist in the type are read. C29_outside_refuted: reading a case that is not stored can read behind the end of an encoded value. C29_independent_refuted and C29_always_refuted: for every enum type the tag and the contents are read from different bytes, so for any two values there are bytes with the tag of the one in which all fields of the other can be read."
  },
  {
   "property": "C30",
   "status": "proved",
   "theorems": [
    "Verif.Props.C30_labels"
   ],
   "note": ""
  },
  {
   "property": "C31",
   "status": "proved",
   "theorems": [
    "Verif.Props.C31_map"
   ],
   "note": ""
  },
  {
   "property": "C32",
   "status": "partial",
   "theorems": [
    "Verif.Props.C32_nul_refuted",
    "Verif.Props.C32_utf8_refuted",
    "Verif.Props.C32_strings_round_trip_partial"
   ],
   "note": "False as stated (NUL is written as \\0; U+8000..U+FFFF are written as four byte sequences that are not UTF-8). The partial theorem is an equivalence: the round trip succeeds for exactly the strings of Writable characters."
  },
  {
   "property": "C33",
   "status": "proved",
   "theorems": [
    "Verif.Props.C33_integers"
   ],
   "note": ""
  },
  {
   "property": "C34",
   "status": "partial",
   "theorems": [
    "Verif.Props.C34_round_trip_refuted",
    "Verif.Props.C34_round_trip_partial",
    "Verif.Props.C34_exactly"
   ],
   "note": "False as stated (C34_round_trip_refuted). C34_exactly says which values survive: encoding and decoding gives the value back if and only if the value is Plain (writable strings, characters and labels that are told apart, floats whose text is a JSON number and parses back, structs of at most 63 fields). Float text is a parameter; the converse assumes that infinities and NaN are written as inf, -inf and NaN and all other floats as JSON numbers."
  },
  {
   "property": "C35",
   "status": "partial",
   "theorems": [
    "Verif.Props.C35_conforms_refuted",
    "Verif.Props.C35_conforms_partial",
    "Verif.Props.C35_accepted"
   ],
   "note": "False as stated: without overflow checks a 64 field struct accepts {} and stores nothing. The partial theorem covers everything else; C35_accepted characterises the accepted texts for all types."
  },
  {
   "property": "C36",
   "status": "proved",
   "theorems": [
    "Verif.Props.C36_order_and_space"
   ],
   "note": ""
  },
  {
   "property": "C37",
   "status": "partial",
   "theorems": [
    "Verif.Props.C37_fields_refuted",
    "Verif.Props.C37_fields_partial",
    "Verif.Props.C37_nested_partial"
   ],
   "note": "False as stated for 64 field structs without overflow checks; the partial theorems cover all other types, also for nested structs."
  },
  {
   "property": "C38",
   "status": "partial",
   "theorems": [
    "Verif.Props.C38_surrogate_refuted",
    "Verif.Props.C38_tokenizer",
    "Verif.Props.C38_fields_refuted",
    "Verif.Props.C38_exactly",
    "Verif.Props.C38_no_panic_partial",
    "Verif.Props.C38_no_surrogates"
   ],
   "note": "False as stated, for every type (C38_surrogate_refuted), and for structs with too many fields (C38_fields_refuted). C38_tokenizer says exactly when the tokenizer panics, C38_exactly exactly when the decoder does, for every type and text. C38_no_panic_partial and C38_no_surrogates: no panic if no string with an escape sequence for a surrogate is reached and every struct has at most 63 fields (64 without overflow checks)."
  },
  {
   "property": "C39",
   "status": "partial",
   "theorems": [
    "Verif.Props.C39_complete_refuted",
    "Verif.Props.C39_complete_partial"
   ],
   "note": "False as stated: text after the document is ignored. The partial theorem says exactly which texts are accepted."
  },
  {
   "property": "C40",
   "status": "partial",
   "theorems": [
    "Verif.Props.C40_escapes_refuted",
    "Verif.Props.C40_escapes_partial"
   ],
   "note": "False as stated: fewer than four digits are accepted. The partial theorem says exactly which strings are accepted."
  },
  {
   "property": "C41",
   "status": "proved",
   "theorems": [
    "Verif.Props.C41_progress",
    "Verif.Props.C41_terminates",
    "Verif.Props.C41_string_loop"
   ],
   "note": ""
  },
  {
   "property": "C42",
   "status": "partial",
   "theorems": [
    "Verif.Props.C42_numbers_refuted",
    "Verif.Props.C42_numbers_partial"
   ],
   "note": "False as stated: '1.' is accepted. The partial theorem shows that this is the only deviation and that every JSON number is read."
  },
  {
   "property": "C43",
   "status": "partial",
   "theorems": [
    "Verif.Props.C43_refuted",
    "Verif.Props.C43_json_binary_json_partial",
    "Verif.Props.C43_checked_iff"
   ],
   "note": "False as stated where the marshaller cannot represent the type (C26). The partial theorem covers all types the marshaller supports and texts below 2^26 characters. C43_checked_iff is exact with overflow checks: the document survives marshalling if and only if every tag of the decoded value has room."
  },
  {
   "property": "C44",
   "status": "proved",
   "theorems": [
    "Verif.Props.C44_location"
   ],
   "note": ""
  },
  {
   "property": "C45",
   "status": "partial",
   "theorems": [
    "Verif.Props.C45_blocks_partial",
    "Verif.Props.C45_blocks_overflow",
    "Verif.Props.C45_blocks_refuted"
   ],
   "note": "False as stated near 2^64, where the sum overflows. The partial theorem covers all sizes whose sum with the block size is below 2^64; the remaining sizes are described by C45_blocks_overflow."
  },
  {
   "property": "C46",
   "status": "proved",
   "theorems": [
    "Verif.Props.C46_buffer_lists_are_sequences",
    "Verif.Props.C46_push_refused",
    "Verif.Props.C46_broken_head"
   ],
   "note": "For all histories; Holds, ListStep and ListRun are the specification (Spec/BufferList). C46_push_refused says exactly when putting a buffer into a list is refused: there is no such buffer, or it is in a list with another one; the only buffer of a list has no links and is not recognised. C46_broken_head: list_push_back tests the tail twice and accepts a head without a last element."
  },
  {
   "property": "C47",
   "status": "partial",
   "theorems": [
    "Verif.Props.C47_new_pool_partial",
    "Verif.Props.C47_new_pool_refuted"
   ],
   "note": "Holds in builds without overflow checks (partial theorem). With overflow checks BufferPool::new panics for every input (refuted theorem)."
  },
  {
   "property": "C48",
   "status": "proved",
   "theorems": [
    "Verif.Props.C48_location_keeps_its_buffer"
   ],
   "note": ""
  },
  {
   "property": "C49",
   "status": "partial",
   "theorems": [
    "Verif.Props.C49_locations_do_not_share_partial",
    "Verif.Props.C49_tasks_do_not_share_partial",
    "Verif.Props.C49_locations_share_refuted"
   ],
   "note": "False: after a release the buffer of a location is given to another location without removing the old mapping. Proved for all executions with any releases: two locations have the same buffer exactly if more locations than buffers have been used (C49_locations_do_not_share_partial)."
  },
  {
   "property": "C50",
   "status": "partial",
   "theorems": [
    "Verif.Props.C50_lists_partition_partial",
    "Verif.Props.C50_first_damage",
    "Verif.Props.C50_lists_partition_refuted"
   ],
   "note": "False for every pool size: the first release of a written buffer leaves it at the head of the available list and of the dirty list. Exact: starting from a new pool the lists stay a partition as long as last handles are released only for buffers in the middle of their list, and the first other release of a last handle destroys the partition, every time (C50_first_damage)."
  },
  {
   "property": "C51",
   "status": "partial",
   "theorems": [
    "Verif.Props.C51_pool_with_room_partial",
    "Verif.Props.C51_exhausted_pool_refuted",
    "Verif.Props.C51_never_waits_refuted"
   ],
   "note": "False for every pool size: buffers in use stay in the available list, so the access panics. In no state of any execution does an access wait for a buffer (C51_never_waits_refuted). Proved for all executions: while fewer locations than buffers have been used, access to a new location succeeds exactly if the lock it takes is not still held by a releasing task."
  },
  {
   "property": "C52",
   "status": "partial",
   "theorems": [
    "Verif.Props.C52_written_data_partial",
    "Verif.Props.C52_written_data_refuted",
    "Verif.Props.C52_always_lost_refuted"
   ],
   "note": "False in every state (C52_always_lost_refuted): after the last handle is released, the next access fetches the block again although the buffer is dirty. The partial theorem covers executions in which the buffer is used all the time."
  },
  {
   "property": "C53",
   "status": "proved",
   "theorems": [
    "Verif.Props.C53_handle_counts",
    "Verif.Props.C53_release",
    "Verif.Props.C53_free_locks"
   ],
   "note": "For all interleavings of fewer than 2^32 tasks."
  },
  {
   "property": "C54",
   "status": "partial",
   "theorems": [
    "Verif.Props.C54_writers_are_exclusive_partial",
    "Verif.Props.C54_lock_handover_partial",
    "Verif.Props.C54_lock_handover_refuted"
   ],
   "note": "Exclusion of other handles holds for all interleavings (partial theorem). The hand-over is not safe: the lock is returned before the guard is dropped (refuted theorem); the second partial theorem says that this is the only way for a free lock to be held."
  },
  {
   "property": "C55",
   "status": "partial",
   "theorems": [
    "Verif.Props.C55_whole",
    "Verif.Props.C55_regions_partial",
    "Verif.Props.C55_bitmap_refuted",
    "Verif.Props.C55_outside_refuted"
   ],
   "note": "False as stated: the allocation bitmap always overlaps the file table mirror, and nothing keeps the metadata inside a small volume. The partial theorem covers header, table and mirror."
  },
  {
   "property": "C56",
   "status": "partial",
   "theorems": [
    "Verif.Props.C56_written",
    "Verif.Props.C56_bitmap_partial",
    "Verif.Props.C56_bitmap_refuted"
   ],
   "note": "False as stated. C56_written says exactly which bits are set; C56_bitmap_partial gives the exact condition on the sizes under which the existing blocks are marked correctly, and that under which all bits are right."
  },
  {
   "property": "C57",
   "status": "partial",
   "theorems": [
    "Verif.Props.C57_default_block_refuted",
    "Verif.Props.C57_defaults_partial"
   ],
   "note": "False: the default block size is 8192. The partial theorem describes what is accepted and returned."
  },
  {
   "property": "C58",
   "status": "partial",
   "theorems": [
    "Verif.Props.C58_indices_partial",
    "Verif.Props.C58_indices_refuted"
   ],
   "note": "Holds without overflow checks; with them the 256th request panics instead of returning an error."
  },
  {
   "property": "C59",
   "status": "proved",
   "theorems": [
    "Verif.Props.C59_equality",
    "Verif.Props.C59_order",
    "Verif.Props.C59_transitive"
   ],
   "note": ""
  },
  {
   "property": "C60",
   "status": "proved",
   "theorems": [
    "Verif.Props.C60_create_schema",
    "Verif.Props.C60_create_again",
    "Verif.Props.C60_describe",
    "Verif.Props.C60_create_table_panics"
   ],
   "note": "create_table and create_view are unimplemented!(), so a database built by calls has no objects; describe is proved for arbitrary catalogues."
  },
  {
   "property": "C61",
   "status": "proved",
   "theorems": [
    "Verif.Props.C61_resolve",
    "Verif.Props.C61_contexts",
    "Verif.Props.C61_unique",
    "Verif.Props.C61_unresolved",
    "Verif.Props.C61_columns"
   ],
   "note": "A missing default schema is a panic (C61_unresolved)."
  },
  {
   "property": "C62",
   "status": "partial",
   "theorems": [
    "Verif.Props.C62_sound_refuted",
    "Verif.Props.C62_is_null_refuted",
    "Verif.Props.C62_expression_partial"
   ],
   "note": "False (C62_sound_refuted: IS NULL, IN, equality of tuples, empty scalar subqueries). C62_expression_partial: sound on the fragment Clear, with nullability (strict = true) or without (strict = false), for every engine and every store matching the catalogue. C62_is_null_refuted: for every expression, the value of IS NULL is of the inferred type exactly if the operand is LOGICAL; the fragment admits IS NULL of conditions."
  },
  {
   "property": "C63",
   "status": "partial",
   "theorems": [
    "Verif.Props.C63_case_conditions_refuted",
    "Verif.Props.C63_conditions_ignored_refuted"
   ],
   "note": "False. C63_case_conditions_refuted: accepted CASE expressions with non-logical conditions or unknown columns in them. C63_conditions_ignored_refuted: for every CASE, replacing all conditions by others (for which inference does not panic) leaves the answer unchanged."
  },
  {
   "property": "C64",
   "status": "partial",
   "theorems": [
    "Verif.Props.C64_no_panic_refuted",
    "Verif.Props.C64_no_panic_partial",
    "Verif.Props.C64_expression_partial",
    "Verif.Props.C64_contexts",
    "Verif.Props.C64_exactly",
    "Verif.Props.C64_panics_iff",
    "Verif.Props.C64_expression_iff",
    "Verif.Props.C64_scalars"
   ],
   "note": "False in general (C64_no_panic_refuted: tuple bodies in CASE, empty IN list, missing default schema). C64_no_panic_partial and C64_expression_partial give the sufficient condition (Safe, a default schema, a scalar context without row variables); C64_contexts shows the contexts built by the code satisfy it. C64_exactly: of the excluded constructions, e IN () panics exactly if e is accepted, a CASE without branches exactly if its operand is accepted, a CASE with a single tuple branch exactly if operand and tuple are accepted, whatever its WHEN and ELSE are, and VALUES without rows always. C64_panics_iff: without any hypothesis, validating a statement panics if and only if one of the parts looked at (Reaches, in Spec/SqlPanic: the rules of Next say after the acceptance of what each part is looked at) is one of the constructions of Dead; C64_expression_iff says the same for an expression in a context of scalars, which by C64_scalars are the contexts of C64_contexts."
  },
  {
   "property": "C65",
   "status": "proved",
   "theorems": [
    "Verif.Props.C65_update",
    "Verif.Props.C65_hidden_column"
   ],
   "note": "Exact characterisation for tables with distinct column names. The scope has a hole, shown by C65_hidden_column."
  },
  {
   "property": "C66",
   "status": "proved",
   "theorems": [
    "Verif.Props.C66_insert",
    "Verif.Props.C66_values_without_columns"
   ],
   "note": "Exact characterisation for tables with distinct column names. Without a column list values are matched by the names _col0, _col1, ... (C66_values_without_columns)."
  },
  {
   "property": "C67",
   "status": "partial",
   "theorems": [
    "Verif.Props.C67_distinct_columns_refuted",
    "Verif.Props.C67_distinct_columns_partial",
    "Verif.Props.C67_clash_refuted",
    "Verif.Props.C67_names",
    "Verif.Props.C67_exactly"
   ],
   "note": "False: a1, a, a becomes a1, a, a1 (and C67_clash_refuted: whenever n is asked for again after k requests of n and a request of n followed by the number k). Proved when the names asked for do not clash: no name asked for is another one followed by a number smaller than the number of requests of that one. C67_names gives every name, C67_exactly says exactly when all are different."
  },
  {
   "property": "C68",
   "status": "partial",
   "theorems": [
    "Verif.Props.C68_equal_arity_refuted",
    "Verif.Props.C68_values_partial",
    "Verif.Props.C68_values_rectangular",
    "Verif.Props.C68_set_operation_partial"
   ],
   "note": "False: operands are zipped and the longer one is cut. The partial theorems describe exactly what is accepted; rows of equal length are characterised completely."
  },
  {
   "property": "C69",
   "status": "proved",
   "theorems": [
    "Verif.Props.C69_delete"
   ],
   "note": ""
  },
  {
   "property": "C70",
   "status": "proved",
   "theorems": [
    "Verif.Props.C70_statement",
    "Verif.Props.C70_expression",
    "Verif.Props.C70_select",
    "Verif.Props.C70_context"
   ],
   "note": "Stated for any respelling that keeps the uppercase form, over statements, expressions, SELECTs and the catalogue; error messages carry no names in the model."
  },
  {
   "property": "C71",
   "status": "proved",
   "theorems": [
    "Verif.Props.C71_texts"
   ],
   "note": ""
  },
  {
   "property": "C72",
   "status": "proved",
   "theorems": [
    "Verif.Props.C72_align",
    "Verif.Props.C72_align_wraps",
    "Verif.Props.C72_align_unchecked"
   ],
   "note": ""
  },
  {
   "property": "C73",
   "status": "partial",
   "theorems": [
    "Verif.Props.C73_create_refuted",
    "Verif.Props.C73_header_block",
    "Verif.Props.C73_file_header_refuted"
   ],
   "note": "False for every input: the header copy panics because the lengths differ. Both theorems are refutations."
  },
  {
   "property": "C74",
   "status": "partial",
   "theorems": [
    "Verif.Props.C74_block_use_partial",
    "Verif.Props.C74_block_use_refuted",
    "Verif.Props.C74_exactly"
   ],
   "note": "False for files of full blocks, true for all others. C74_exactly gives the two numbers for all sizes and says when they determine the size."
  },
  {
   "property": "C75",
   "status": "partial",
   "theorems": [
    "Verif.Props.C75_timestamp_partial",
    "Verif.Props.C75_timestamp_refuted",
    "Verif.Props.C75_timestamp_panics"
   ],
   "note": "False: the assertion tests the wrong bits. The partial theorem covers the times at which it passes."
  },
  {
   "property": "C76",
   "status": "proved",
   "theorems": [
    "Verif.Props.C76_pool_panics_exactly"
   ],
   "note": ""
  },
  {
   "property": "C77",
   "status": "partial",
   "theorems": [
    "Verif.Props.C77_outer_join_refuted",
    "Verif.Props.C77_using_refuted",
    "Verif.Props.C77_star_refuted",
    "Verif.Props.C77_with_refuted",
    "Verif.Props.C77_query_partial"
   ],
   "note": "False for outer joins, joins with USING, relation.* and a WITH that hides a table. C77_query_partial: all queries of the fragment Clear, which admits WITH if no table of the catalogue has the names it defines."
  },
  {
   "property": "C78",
   "status": "partial",
   "theorems": [
    "Verif.Props.C78_update_refuted",
    "Verif.Props.C78_insert_refuted",
    "Verif.Props.C78_insert_partial",
    "Verif.Props.C78_update_partial",
    "Verif.Props.C78_delete"
   ],
   "note": "False for UPDATE with an empty scalar subquery and INSERT without a column list whose source has its columns in another order than the table. Proved otherwise for the fragment Clear; DELETE without restriction."
  },
  {
   "property": "C79",
   "status": "partial",
   "theorems": [
    "Verif.Props.C79_from",
    "Verif.Props.C79_names_partial",
    "Verif.Props.C79_hidden_refuted"
   ],
   "note": "Exact characterisation of accepted FROM clauses and of the names known afterwards; a relation name hides a column of the same name (C79_hidden_refuted)."
  },
  {
   "property": "C80",
   "status": "partial",
   "theorems": [
    "Verif.Props.C80_in_refuted",
    "Verif.Props.C80_in_partial",
    "Verif.Props.C80_list",
    "Verif.Props.C80_list_exactly",
    "Verif.Props.C80_common_type"
   ],
   "note": "False for all operands neither of which may be NULL: is_compatible answers nullability. C80_in_partial is the exact condition. C80_list: a list of one element has the row type of VALUES with that element. C80_list_exactly: which lists have a row type, and which. C80_common_type: exactly when two types have a common type."
  },
  {
   "property": "C81",
   "status": "partial",
   "theorems": [
    "Verif.Props.C81_with_refuted",
    "Verif.Props.C81_initialize_partial"
   ],
   "note": "False for all queries: the WITH clause has no influence on the types in FROM. C81_initialize_partial describes SetContext::initialize, which would do it but is not called."
  },
  {
   "property": "C82",
   "status": "partial",
   "theorems": [
    "Verif.Props.C82_order_refuted",
    "Verif.Props.C82_order_partial"
   ],
   "note": "False for every query without WITH."
  },
  {
   "property": "C83",
   "status": "partial",
   "theorems": [
    "Verif.Props.C83_subquery_refuted",
    "Verif.Props.C83_subquery_partial"
   ],
   "note": "False for every query from a subquery; only * works."
  },
  {
   "property": "C84",
   "status": "partial",
   "theorems": [
    "Verif.Props.C84_join_refuted"
   ],
   "note": "False for every join: neither the operator nor the condition is looked at."
  },
  {
   "property": "C85",
   "status": "partial",
   "theorems": [
    "Verif.Props.C85_column_list_partial",
    "Verif.Props.C85_rename_refuted"
   ],
   "note": "False: the list selects by name. C85_column_list_partial is the exact behaviour."
  },
  {
   "property": "C86",
   "status": "partial",
   "theorems": [
    "Verif.Props.C86_star_partial",
    "Verif.Props.C86_star_order_refuted"
   ],
   "note": "The columns come in the order of their names."
  },
  {
   "property": "C87",
   "status": "proved",
   "theorems": [
    "Verif.Props.C87_returns",
    "Verif.Props.C87_bound"
   ],
   "note": ""
  },
  {
   "property": "C88",
   "status": "proved",
   "theorems": [
    "Verif.Props.C88_accepts_grammar"
   ],
   "note": ""
  },
  {
   "property": "C89",
   "status": "proved",
   "theorems": [
    "Verif.Props.C89_unambiguous",
    "Verif.Props.C89_text_unambiguous"
   ],
   "note": ""
  },
  {
   "property": "C90",
   "status": "proved",
   "theorems": [
    "Verif.Props.C90_unexpected_word",
    "Verif.Props.C90_unexpected_end",
    "Verif.Props.C90_no_word",
    "Verif.Props.C90_outcomes"
   ],
   "note": ""
  },
  {
   "property": "C91",
   "status": "proved",
   "theorems": [
    "Verif.Props.C91_words",
    "Verif.Props.C91_covers"
   ],
   "note": ""
  },
  {
   "property": "C92",
   "status": "partial",
   "theorems": [
    "Verif.Props.C92_expected_refuted",
    "Verif.Props.C92_expected_too_much_refuted",
    "Verif.Props.C92_expected_wrong_refuted",
    "Verif.Props.C92_expected_partial",
    "Verif.Props.C92_expected_exact_partial",
    "Verif.Props.C92_expected_end_partial"
   ],
   "note": "The list is wrong in both directions: for `SELECT a ) b` it is empty although FROM, comma and others can follow `SELECT a` (C92_expected_refuted), and for `SELECT 'a' 's'` it names ASC, which cannot follow (C92_expected_too_much_refuted). The cause is that the list is computed from the state in which the error is found, after reductions with a merged lookahead. Proved: the reported word itself is never in the list. The list is exact (it names the kinds of words that can follow and no others) at the first word and wherever the last word read is one of a list of words (`opening`: keywords, operators, commas and parentheses after which nothing is reduced), and also at the end of a text that ends with such a word (C92_expected_exact_partial, C92_expected_end_partial)."
  },
  {
   "property": "C93",
   "status": "proved",
   "theorems": [
    "Verif.Props.C93_keywords",
    "Verif.Props.C93_layout_words",
    "Verif.Props.C93_layout",
    "Verif.Props.C93_identifiers",
    "Verif.Props.C93_number_letters"
   ],
   "note": "Proved for keywords, white space and identifiers. Not so for numbers (C93_number_letters): the case of letters in numbers matters, `1E5` is a number and `1e5` is the number 1 with the alias e5; likewise 0x1F and 0X1F."
  },
  {
   "property": "C94",
   "status": "partial",
   "theorems": [
    "Verif.Props.C94_exactly",
    "Verif.Props.C94_text_panics_refuted",
    "Verif.Props.C94_text_panics_partial"
   ],
   "note": "False: `SELECT 1 IN ()` and `SELECT CASE WHEN 1 THEN (1, 1) END` are statements whose validation panics. Proved for all texts without `(` directly before `)` and without THEN directly before `(` or `+`. C94_exactly: if there is a default schema, validating a statement that has a text panics if and only if one of the parts looked at is an empty list after IN with an accepted operand, or a CASE with a single branch that is an accepted tuple of two or more."
  },
  {
   "property": "C95",
   "status": "proved",
   "theorems": [
    "Verif.Props.C95_operators",
    "Verif.Props.C95_limit"
   ],
   "note": "Types of names, subqueries, IN and CASE are taken as inferred (C63, C77, C79, C80 are about them)."
  },
  {
   "property": "C96",
   "status": "partial",
   "theorems": [
    "Verif.Props.C96_round_trip",
    "Verif.Props.C96_expressible",
    "Verif.Props.C96_normal_form",
    "Verif.Props.C96_faithful",
    "Verif.Props.C96_unions_refuted",
    "Verif.Props.C96_quotes_refuted",
    "Verif.Props.C96_intersect"
   ],
   "note": "Exactly the statements of Writable have a text (C96_expressible), and Writable ones are written by `text` of Spec/SqlWriting and read back. False for the whole syntax tree: a set operation as right operand (C96_unions_refuted) and quotation marks in strings (C96_quotes_refuted) have no text."
  },
  {
   "property": "C97",
   "status": "proved",
   "theorems": [
    "Verif.Props.C97_meta_data",
    "Verif.Props.C97_type_names",
    "Verif.Props.C97_describe_text",
    "Verif.Props.C97_attach_text",
    "Verif.Props.C97_names",
    "Verif.Props.C97_describe",
    "Verif.Props.C97_explain"
   ],
   "note": ""
  },
  {
   "property": "C98",
   "status": "partial",
   "theorems": [
    "Verif.Props.C98_slots_partial",
    "Verif.Props.C98_in_table",
    "Verif.Props.C98_slots_refuted"
   ],
   "note": "False for headers larger than blocks, which VolumeParameters allows: no header can be written then (C98_slots_refuted)."
  },
  {
   "property": "C99",
   "status": "partial",
   "theorems": [
    "Verif.Props.C99_slices_partial",
    "Verif.Props.C99_slices_refuted"
   ],
   "note": "False without overflow checks when the product of size and number of buffers is 2^64 or more. The result of mapping the memory is a parameter of the model."
  },
  {
   "property": "C100",
   "status": "partial",
   "theorems": [
    "Verif.Props.C100_kept_partial",
    "Verif.Props.C100_queries",
    "Verif.Props.C100_without_with",
    "Verif.Props.C100_with_refuted",
    "Verif.Props.C100_lost_refuted"
   ],
   "note": "False: a WITH clause before INSERT, DELETE or UPDATE is parsed and dropped, whatever it says (C100_with_refuted for all such statements). Proved: nothing else is lost."
  },
  {
   "property": "C101",
   "status": "proved",
   "theorems": [
    "Verif.Props.C101_synonyms",
    "Verif.Props.C101_plain_text"
   ],
   "note": "The second number of `LIMIT a, b` is the offset, as with OFFSET; other SQL dialects take the first as the offset."
  },
  {
   "property": "C102",
   "status": "proved",
   "theorems": [
    "Verif.Props.C102_assignable"
   ],
   "note": ""
  },
  {
   "property": "C103",
   "status": "partial",
   "theorems": [
    "Verif.Props.C103_damaged_partial",
    "Verif.Props.C103_insert",
    "Verif.Props.C103_remove",
    "Verif.Props.C103_damaged_refuted"
   ],
   "note": "False: insert_row and remove_row copy with ptr::copy after slices that check only where source and destination start (C103_damaged_refuted: pages of 16 and 20 bytes). C103_insert and C103_remove say exactly for which contents, alignments and builds this happens. The partial theorem: the other calls never do, and these two do not on pages whose rows lie in the page one before the other."
  },
  {
   "property": "C104",
   "status": "partial",
   "theorems": [
    "Verif.Props.C104_measured",
    "Verif.Props.C104_damaged_refuted",
    "Verif.Props.C104_damaged_partial",
    "Verif.Props.C104_value"
   ],
   "note": "False: lengths are never compared with the number of bytes, only the start of a field is (C104_damaged_refuted). The partial theorem: if encoding_size returns and is at most the number of bytes, everything that is stored can be read, and the bytes hold a value (C104_value) if the stored Booleans and characters are such; types of fewer than 2^29 nodes. Conversely bytes that show a value are found to have its size, if there are as many (C104_measured)."
  },
  {
   "property": "C105",
   "status": "proved",
   "theorems": [
    "Verif.Props.C105_arithmetic",
    "Verif.Props.C105_arithmetic_64",
    "Verif.Props.C105_pages",
    "Verif.Props.C105_marshaller",
    "Verif.Props.C105_json",
    "Verif.Props.C105_json_binary_json",
    "Verif.Props.C105_volumes",
    "Verif.Props.C105_buffer_pool"
   ],
   "note": ""
  },
  {
   "property": "C106",
   "status": "proved",
   "theorems": [
    "Verif.Props.C106_values_on_a_page",
    "Verif.Props.C106_documents_on_a_page"
   ],
   "note": ""
  },
  {
   "property": "C107",
   "status": "proved",
   "theorems": [
    "Verif.Props.C107_get",
    "Verif.Props.C107_room",
    "Verif.Props.C107_append",
    "Verif.Props.C107_insert",
    "Verif.Props.C107_insert_last",
    "Verif.Props.C107_remove",
    "Verif.Props.C107_builds"
   ],
   "note": ""
  },
  {
   "property": "C108",
   "status": "partial",
   "theorems": [
    "Verif.Props.C108_whole_refuted",
    "Verif.Props.C108_interrupted_refuted",
    "Verif.Props.C108_six_bytes_partial",
    "Verif.Props.C108_slow_iff",
    "Verif.Props.C108_subsequence"
   ],
   "note": "False as stated: write_ch calls write and ignores how much was taken, so a writer that takes one byte at a time gets the document of another value while encode returns Ok (C108_whole_refuted), and an interrupted write within a string is reported as an error (C108_interrupted_refuted). C108_six_bytes_partial: the document is complete for writers that take at least six bytes of what they are offered. C108_slow_iff: for writers that take at least one byte, exactly documents without escapes and characters outside ASCII are always complete. C108_subsequence: for every writer, the bytes taken are bytes of the document in order."
  },
  {
   "property": "C109",
   "status": "proved",
   "theorems": [
    "Verif.Props.C109_returns",
    "Verif.Props.C109_ends",
    "Verif.Props.C109_prefix",
    "Verif.Props.C109_vec"
   ],
   "note": "C109_vec also shows that the encoder model used by the other JSON properties (output to a Vec<u8>) is the special case of a writer that takes everything."
  },
  {
   "property": "C110",
   "status": "partial",
   "theorems": [
    "Verif.Props.C110_pages_partial",
    "Verif.Props.C110_pages_refuted"
   ],
   "note": "False as stated: the functions are safe and take any slice of bytes, and at an address that is not a multiple of four every call is undefined behaviour (C110_pages_refuted). C110_pages_partial: at multiples of four no pointer is misaligned, whatever the page contains."
  },
  {
   "property": "C111",
   "status": "partial",
   "theorems": [
    "Verif.Props.C111_marshaller_partial",
    "Verif.Props.C111_lone",
    "Verif.Props.C111_order_refuted",
    "Verif.Props.C111_crooked",
    "Verif.Props.C111_exactly",
    "Verif.Props.C111_address_refuted",
    "Verif.Props.C111_rows_partial",
    "Verif.Props.C111_buffers"
   ],
   "note": "False as stated: for types that store an enum after one with a case whose size can be no multiple of its alignment words are misaligned at every start (C111_order_refuted), and at addresses that are not multiples of the alignment, which safe callers may pass, words are misaligned (C111_address_refuted). C111_marshaller_partial: otherwise encode_with_source, encoding_size and all readers do what they do without addresses, for all sources and bytes; C111_lone gives a condition on the type alone; C111_rows_partial and C111_buffers carry the alignment from the mapped memory to the rows of a page. C111_exactly: the condition on sizes is exact: encoding values at multiples of the alignment follows only aligned pointers if and only if it holds; otherwise C111_crooked gives a value for which encoding is undefined behaviour at every such address."
  },
  {
   "property": "C112",
   "status": "proved",
   "theorems": [
    "Verif.Props.C112_value",
    "Verif.Props.C112_refines",
    "Verif.Props.C112_new"
   ],
   "note": "C112_refines also shows that the tokenizer model used by the other JSON properties (a function of the text that is left) agrees with the tokenizer and its byte positions."
  },
  {
   "property": "C113",
   "status": "partial",
   "theorems": [
    "Verif.Props.C113_token_refuted",
    "Verif.Props.C113_value_refuted",
    "Verif.Props.C113_token_partial",
    "Verif.Props.C113_value_partial",
    "Verif.Props.C113_stuck",
    "Verif.Props.C113_end_refuted",
    "Verif.Props.C113_end_partial"
   ],
   "note": "False as stated: numbers and escape sequences leave the token of the call before (C113_token_refuted), value can return the text of the token before (C113_value_refuted), and a character with which no token begins is never passed (C113_end_refuted). C113_token_partial, C113_value_partial, C113_stuck and C113_end_partial say exactly what happens."
  },
  {
   "property": "C114",
   "status": "partial",
   "theorems": [
    "Verif.Props.C114_agrees",
    "Verif.Props.C114_unchanged_refuted",
    "Verif.Props.C114_empty_refuted",
    "Verif.Props.C114_partial",
    "Verif.Props.C114_leaves"
   ],
   "note": "False as stated: the components before the error stay (C114_unchanged_refuted), and earlier contents are lost once there is a first token and kept if there is none (C114_empty_refuted). C114_partial: without a first token the data source is unchanged; otherwise it depends on the text only and contains part of a value of the type and nothing else. C114_agrees ties this model to the one the other JSON properties use."
  },
  {
   "property": "C115",
   "status": "partial",
   "theorems": [
    "Verif.Props.C115_handles_partial",
    "Verif.Props.C115_never_free",
    "Verif.Props.C115_handles_refuted",
    "Verif.Props.C115_writers_are_exclusive",
    "Verif.Props.C115_panics_exactly",
    "Verif.Props.C115_every_event",
    "Verif.Props.C115_location_keeps_its_buffer",
    "Verif.Props.C115_contents_stay",
    "Verif.Props.C115_never_loaded_refuted",
    "Verif.Props.C115_stale_refuted",
    "Verif.Props.C115_used_up_refuted",
    "Verif.Props.C115_second_attempt_refuted"
   ],
   "note": "False as stated. What is kept: writers are exclusive, a location keeps its buffer, and a step panics exactly in the situations of C76 (C115_writers_are_exclusive, C115_location_keeps_its_buffer, C115_panics_exactly). What is lost: the handle is never returned, so the count is the number of users plus the number of handles left behind (C115_handles_partial, C115_handles_refuted); such a buffer is never free (C115_never_free) and never loaded again (C115_never_loaded_refuted), so the next task reads what an abandoned load left there (C115_stale_refuted); a pool whose buffers are all lost panics for every new location (C115_used_up_refuted); and a panic of an exhausted pool has mapped the location already, so that the second attempt reads the buffer of another location (C115_second_attempt_refuted). The number of tasks and handles left behind is below 2^32."
  },
  {
   "property": "C116",
   "status": "proved",
   "theorems": [
    "Verif.Props.C116_only_values",
    "Verif.Props.C116_checked_iff",
    "Verif.Props.C116_unchecked_iff",
    "Verif.Props.C116_reads_back"
   ],
   "note": "C116_only_values holds for types of fewer than 2^59 nodes, the equivalences for fewer than 2^24 nodes, so that no size overflows. Tags without room are the subject of C26."
  },
  {
   "property": "C117",
   "status": "proved",
   "theorems": [
    "Verif.Props.C117_tokens",
    "Verif.Props.C117_errors"
   ],
   "note": "The texts of tokens are those the tokenizer takes, which are more than JSON has: fractions without digits and \\\\u with fewer than four digits (C40, C42)."
  },
  {
   "property": "C118",
   "status": "partial",
   "theorems": [
    "Verif.Props.C118_slices_partial",
    "Verif.Props.C118_contents_partial",
    "Verif.Props.C118_executions",
    "Verif.Props.C118_two_slices_refuted",
    "Verif.Props.C118_kept_slice_refuted"
   ],
   "note": "False: the slices have the lifetime of the pool, so safe code can get two mutable slices from one handle (C118_two_slices_refuted, always) and keep one after the release (C118_kept_slice_refuted). True if every owner of a handle releases it only when its slices are not used any more and has no other slice beside a mutable one (C118_slices_partial, C118_contents_partial)."
  },
  {
   "property": "C119",
   "status": "proved",
   "theorems": [
    "Verif.Props.C119_no_deadlock",
    "Verif.Props.C119_waiting_ends",
    "Verif.Props.C119_at_most_three_each",
    "Verif.Props.C119_ends_idle",
    "Verif.Props.C119_all_can_end",
    "Verif.Props.C119_waits_for_the_owner"
   ],
   "note": "Proved for tasks with one handle each that return it. C119_waits_for_the_owner shows what happens otherwise: who asks for a location once more before returning a read-write handle of it waits for ever."
  },
  {
   "property": "C120",
   "status": "proved",
   "theorems": [
    "Verif.Props.C120_contexts",
    "Verif.Props.C120_query",
    "Verif.Props.C120_catalogue",
    "Verif.Props.C120_create_schema"
   ],
   "note": "Table names are those in FROM, on the right of IN, in all subqueries, and the table of INSERT, UPDATE, DELETE and DESCRIBE (Spec/SqlTables)."
  },
  {
   "property": "C121",
   "status": "partial",
   "theorems": [
    "Verif.Props.C121_overlay",
    "Verif.Props.C121_leftover",
    "Verif.Props.C121_exactly",
    "Verif.Props.C121_canonical_partial",
    "Verif.Props.C121_canonical_refuted"
   ],
   "note": "Refuted: equal values need not have equal encodings, because padding and the unused bits of tag containers keep what was in the buffer (C121_canonical_refuted; exactly when: C121_canonical_partial). The rest is proved for all values that fit."
  },
  {
   "property": "C122",
   "status": "partial",
   "theorems": [
    "Verif.Props.C122_header_partial",
    "Verif.Props.C122_name_partial",
    "Verif.Props.C122_attributes_refuted",
    "Verif.Props.C122_record_refuted",
    "Verif.Props.C122_extent_refuted",
    "Verif.Props.C122_unaligned_refuted"
   ],
   "note": "False. init_file_header never returns: the copy of the header needs a record of 40 bytes (C122_record_refuted), and the attributes after it never fit because the name must take the rest of the record (C122_attributes_refuted). The extent is written to the wrong place (C122_extent_refuted) or to a misaligned address (C122_unaligned_refuted). The header itself and the name are as documented (C122_header_partial, C122_name_partial)."
  },
  {
   "property": "C123",
   "status": "partial",
   "theorems": [
    "Verif.Props.C123_mirror",
    "Verif.Props.C123_bitmap",
    "Verif.Props.C123_bitmap_refuted"
   ],
   "note": "Proved for the two loops of VolumeManager::create; that they are not reached is C73. C123_bitmap_refuted: if the buffers of the pool are smaller than the blocks of the volume, the words of the bitmap are written past the end of a buffer. That the bitmap and the mirror overlap on the disk is C55_bitmap_refuted."
  },
  {
   "property": "C124",
   "status": "partial",
   "theorems": [
    "Verif.Props.C124_agrees",
    "Verif.Props.C124_nesting_partial",
    "Verif.Props.C124_text_partial",
    "Verif.Props.C124_bounded_refuted",
    "Verif.Props.C124_exactly"
   ],
   "note": "False: for every number n of nested calls there is a text of 2n+8 characters (SELECT - - … - 1) that the parser accepts and that is a right statement, but whose validation needs more calls (C124_bounded_refuted). The code has no limit of the depth, so a short text overflows the stack. A limit never changes an answer (C124_agrees); what is enough is the nesting of the statement (C124_nesting_partial), which is at most 2w+3 for a text of w words (C124_text_partial). For right statements without CASE and with rows of equal lengths it is exactly what is needed (C124_exactly)."
  },
  {
   "property": "C125",
   "status": "proved",
   "theorems": [
    "Verif.Props.C125_outcome",
    "Verif.Props.C125_parts",
    "Verif.Props.C125_text",
    "Verif.Props.C125_exactly"
   ],
   "note": "Counts the calls of infer_type and validate_type, which is the work up to what one call does by itself; that includes work for each column in scope (see C126 for how many columns there can be), which is not counted. For right statements without CASE and with rows of equal lengths there are exactly as many calls as parts (C125_exactly)."
  },
  {
   "property": "C126",
   "status": "proved",
   "theorems": [
    "Verif.Props.C126_places",
    "Verif.Props.C126_text"
   ],
   "note": "Holds for contexts of any kind; if the names of a WITH were defined with SetContext::initialize, which is not called, w would be that of the widest common table expression."
  },
  {
   "property": "C127",
   "status": "proved",
   "theorems": [
    "Verif.Props.C127_outcome",
    "Verif.Props.C127_bounds",
    "Verif.Props.C127_exactly"
   ],
   "note": "Counts the nested calls of parse, not the size of their frames; parse is the only function of the decoder and tokenizer that calls itself. parser_for_type, which builds the parsers, follows the type and sees no text."
  },
  {
   "property": "C128",
   "status": "proved",
   "theorems": [
    "Verif.Props.C128_outcome",
    "Verif.Props.C128_asks",
    "Verif.Props.C128_nothing_else",
    "Verif.Props.C128_counts",
    "Verif.Props.C128_chain"
   ],
   "note": "The two functions are modelled once more with the list of their calls, and proved to have the same outcome. The quadratic number of calls is a property of the code: encode_with_source throws away the size that the nested call returns and computes it again (L660-661)."
  },
  {
   "property": "C129",
   "status": "proved",
   "theorems": [
    "Verif.Props.C129_reason",
    "Verif.Props.C129_expression",
    "Verif.Props.C129_exactly",
    "Verif.Props.C129_typed",
    "Verif.Props.C129_unreported"
   ],
   "note": "The flaws are an inductive definition with one constructor for each situation, which says what the types of the parts are and not in which order they are looked at. Facts about the code that show in it: errors in WHEN parts are not reported, IN is rejected with \"incompatible\" if nothing on either side can be NULL, a row of VALUES that is too short keeps the columns after it from being compared, and of two columns of a table with one name the last counts. If there are several flaws, it is not stated which of them is reported."
  },
  {
   "property": "C130",
   "status": "proved",
   "theorems": [
    "Verif.Props.C130_longer",
    "Verif.Props.C130_inside"
   ],
   "note": "C130_longer holds for every layout, also for those that no type has; C130_inside also for bytes that hold no value, including those for which reading a Boolean or character is undefined: it is for all or for none."
  },
  {
   "property": "C131",
   "status": "proved",
   "theorems": [
    "Verif.Props.C131_outline",
    "Verif.Props.C131_expression",
    "Verif.Props.C131_query",
    "Verif.Props.C131_literals",
    "Verif.Props.C131_operators",
    "Verif.Props.C131_comparisons"
   ],
   "note": "The outline is defined on the syntax alone (Spec/SqlOutline.lean). That conditions and kinds of joins and aliases of subqueries have no influence is a gap in the code: ON with an unknown column is accepted."
  },
  {
   "property": "C132",
   "status": "partial",
   "theorems": [
    "Verif.Props.C132_not_rejected_partial",
    "Verif.Props.C132_accepted_partial",
    "Verif.Props.C132_query_partial",
    "Verif.Props.C132_contexts",
    "Verif.Props.C132_in_refuted",
    "Verif.Props.C132_panic_refuted"
   ],
   "note": "False for IN, which is rejected if neither operand can be NULL (C132_in_refuted: name IN ('x') is accepted until name is declared NOT NULL), and a query can start to panic: in a WHEN part, of which errors are ignored, an error can hide a panic that comes later (C132_panic_refuted). C132_not_rejected_partial: without IN outside WHEN parts, statements are accepted or panic; C132_accepted_partial: they are accepted if they are safe in the sense of C64. C132_query_partial compares the row types."
  },
  {
   "property": "C133",
   "status": "proved",
   "theorems": [
    "Verif.Props.C133_values",
    "Verif.Props.C133_documents",
    "Verif.Props.C133_no_others",
    "Verif.Props.C133_written",
    "Verif.Props.C133_reused_label"
   ],
   "note": "C133_documents and C133_no_others: the decoder before and after; C133_written: the encoder; C133_values: typing. C133_reused_label shows that the labels have to be new: the last of two cases with the same label counts."
  },
  {
   "property": "C134",
   "status": "proved",
   "theorems": [
    "Verif.Props.C134_alignment",
    "Verif.Props.C134_sizes"
   ],
   "note": "C134_alignment: equality with a function of the type; C134_sizes: the sizes of encodings."
  },
  {
   "property": "C135",
   "status": "partial",
   "theorems": [
    "Verif.Props.C135_encoded_partial",
    "Verif.Props.C135_read_partial",
    "Verif.Props.C135_bits_refuted",
    "Verif.Props.C135_width_refuted"
   ],
   "note": "False in general: an added case that needs another bit for the tag moves the tags, so that a stored byte is read as the new case (C135_bits_refuted), and an added case with a wider word moves the data of all cases (C135_width_refuted). C135_encoded_partial and C135_read_partial: true if the tags need as many bits as before and no added case has a wider word than all the cases before (Roomy), for everything the encoder writes and the readers return."
  },
  {
   "property": "C136",
   "status": "proved",
   "theorems": [
    "Verif.Props.C136_grouping",
    "Verif.Props.C136_read",
    "Verif.Props.C136_exists"
   ],
   "note": "C136_grouping: same alignment, size and bytes; C136_read: data stored for one type read for the other; C136_exists: both layouts exist if no tuple or struct is empty. Atoms keep their order; an example shows that reordering changes the bytes."
  },
  {
   "property": "C137",
   "status": "partial",
   "theorems": [
    "Verif.Props.C137_statement_partial",
    "Verif.Props.C137_query_partial",
    "Verif.Props.C137_expression_partial",
    "Verif.Props.C137_exchange",
    "Verif.Props.C137_set_operation",
    "Verif.Props.C137_panic_refuted"
   ],
   "note": "Holds for statements without the constructions that panic (Safe, C64); C137_panic_refuted: an accepted CASE panics when the operands of AND in its WHEN part are exchanged. C137_exchange and C137_set_operation need no such condition."
  },
  {
   "property": "C138",
   "status": "proved",
   "theorems": [
    "Verif.Props.C138_from",
    "Verif.Props.C138_star",
    "Verif.Props.C138_update",
    "Verif.Props.C138_insert",
    "Verif.Props.C138_insert_all"
   ],
   "note": "C138_from: the tables of FROM as a bag decide; C138_star for SELECT *; C138_update: the pairs (column, expression) decide; C138_insert with C138_insert_all for INSERT of rows of the same length. The source of an INSERT is VALUES here, not a query."
  },
  {
   "property": "C139",
   "status": "partial",
   "theorems": [
    "Verif.Props.C139_statement_partial",
    "Verif.Props.C139_query_partial",
    "Verif.Props.C139_database",
    "Verif.Props.C139_star_refuted"
   ],
   "note": "Holds for statements without t.* (C139_statement_partial, C139_query_partial, with C139_database for catalogues): also if the renaming changes the order of names. C139_star_refuted: t.* lists the columns in the order of their names, so that a statement that is accepted can be rejected after renaming."
  },
  {
   "property": "C140",
   "status": "proved",
   "theorems": [
    "Verif.Props.C140_at_most",
    "Verif.Props.C140_at_least",
    "Verif.Props.C140_at_least_builds",
    "Verif.Props.C140_exact",
    "Verif.Props.C140_reached"
   ],
   "note": "The upper bound holds in both builds (C140_at_most) and is reached by an example (C140_reached). The lower bound holds in the checked build whenever a size is computed, and in both builds within the limits of the format. C140_exact: values without enums have no padding but at the end."
  },
  {
   "property": "C141",
   "status": "proved",
   "theorems": [
    "Verif.Props.C141_size",
    "Verif.Props.C141_encoded"
   ],
   "note": "In the checked build whenever both sizes are computed (C141_size), and for what both builds write within the limits of the format (C141_encoded). The cases of an enum that the value has not may be anything with the same widest word."
  },
  {
   "property": "C142",
   "status": "proved",
   "theorems": [
    "Verif.Props.C142_fill",
    "Verif.Props.C142_full"
   ],
   "note": "C142_fill: enough room, by a bound that does not mention layouts. C142_full: too little room; for rows that are not empty."
  },
  {
   "property": "C143",
   "status": "proved",
   "theorems": [
    "Verif.Props.C143_places",
    "Verif.Props.C143_overwrite",
    "Verif.Props.C143_undo"
   ],
   "note": "C143_places: the bits are chosen before the value. C143_overwrite and C143_undo: nothing of the earlier value is left, and it can be restored. An example shows that a shorter string does leave a letter behind."
  },
  {
   "property": "C144",
   "status": "proved",
   "theorems": [
    "Verif.Props.C144_distance",
    "Verif.Props.C144_update",
    "Verif.Props.C144_same"
   ],
   "note": "C144_distance: exact number of differing bits. C144_update: the same for bytes in which a value is read. C144_same: no differing bit."
  },
  {
   "property": "C145",
   "status": "proved",
   "theorems": [
    "Verif.Props.C145_one_reading",
    "Verif.Props.C145_prefix_free",
    "Verif.Props.C145_split",
    "Verif.Props.C145_injective",
    "Verif.Props.C145_apart",
    "Verif.Props.C145_pages"
   ],
   "note": "C145_one_reading: the only value read. C145_prefix_free: no encoding continues another. C145_split: lists of encodings. C145_injective: equal encodings in a buffer. C145_apart: no differing bit means the same value. C145_pages: pages with the same bytes."
  },
  {
   "property": "C146",
   "status": "partial",
   "theorems": [
    "Verif.Props.C146_documents_refuted",
    "Verif.Props.C146_documents_partial",
    "Verif.Props.C146_records_partial",
    "Verif.Props.C146_one_value"
   ],
   "note": "C146_documents_refuted: two cases of an enum with equal labels are written alike. C146_documents_partial and C146_records_partial: all values that survive the round trip of C34 are told apart. C146_one_value: the value of an accepted document is the only one its data present."
  },
  {
   "property": "C147",
   "status": "proved",
   "theorems": [
    "Verif.Props.C147_reachable",
    "Verif.Props.C147_rebuild",
    "Verif.Props.C147_values",
    "Verif.Props.C147_bytes"
   ],
   "note": "C147_reachable: exactly the lists of rows that fit. C147_rebuild: the rows of a page on another one. C147_values: the same for records. C147_bytes: the rows determine the bytes of the directory and of the rows."
  },
  {
   "property": "C148",
   "status": "proved",
   "theorems": [
    "Verif.Props.C148_replace",
    "Verif.Props.C148_shorter",
    "Verif.Props.C148_update"
   ],
   "note": "C148_replace: exact condition, and what keeps its bytes. C148_shorter: rows that are not longer. C148_update: records of values of the same form."
  }
 ]
}