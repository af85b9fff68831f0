# Formal model of hmwill/cathlamet

## 1. Layout of this directory

* `properties.jsonl`  – the properties (C01, C02, ...), stated in terms of the public API.
* `lean/Verif/Model/*`  – the model: one Lean file per Rust module, each definition cites the Rust lines.
* `lean/Verif/Spec/*`   – small independent specifications (plain lists, mathematical definitions, value trees).
* `lean/Verif/Proof/*`  – helper lemmas and invariants.
* `lean/Verif/Props/*`  – the property theorems, each followed by a concrete instance of its hypotheses.
* `lean/Verif/Props/RepoTests.lean` – the 24 unit tests of `/repo/src/core` with their inputs and assertions, run on the
  model by the kernel. They test that the model follows the code; they are no proofs and carry no claim.
* `MANIFEST.json`       – property → theorems.
* `seeded/LOG.jsonl`    – log of model mutations tried against the theorems.

## 2. Modelling conventions

* A panic (assert, unwrap, index out of bounds, `unimplemented!`) is the value `Fault.panic`; undefined
  behaviour (raw pointer access outside the slice, invalid `bool`/`char` bit patterns) is `Fault.ub`.
  A function that can fail returns `Except Fault α`. Rust `Result::Err` is modelled as an ordinary value,
  so that "returns an error" and "panics" are never confused.
* `&mut` arguments become results.
* Where arithmetic overflow behaves differently in debug and release builds, the model takes a parameter
  `chk : Bool` (`overflow-checks`). Theorems hold for both values unless they say otherwise.
* `usize` is 64 bits. Where wrap-around cannot occur because a length of an existing slice bounds the value,
  `Nat` is used and the definition says so.
* Raw pointer loads and stores of integers are little endian byte accesses (x86-64, aarch64).
  Misaligned access through raw pointers is not a fault in most of the model. `Verif/Model/Aligned.lean` repeats the functions
  that follow pointers (pages, encoding, readers) with the address of the bytes and makes it one; C110 and C111 say when
  the two agree.
* Standard library: `Vec`, slices = `List`; `BTreeMap` = association list kept by key order where the order
  is observable; `sort_by` = stable merge sort; `binary_search_by` = its documented contract on sorted slices.
  Unicode tables (`to_uppercase`, `is_alphanumeric` above U+007F) and float printing/parsing are parameters.

## 3. Plan per property

| ID | Modelled | How proved |
|----|----------|------------|
| C01 | `util::align` on 64-bit words | bit-level identity, then "least multiple" characterisation |
| C02 | `required_bits` loop | loop invariant |
| C03 | `log2` | bit-level: power-of-two test and leading zeros |
| C04 | `set_value`, `get_value` | list splice algebra, little-endian round trip |
| C05 | all of `PageFormat` over a byte list | representation invariant `Rep page rows`, refinement step per operation, induction over histories |
| C06 | `max_insert_row_size` | closed form from `Rep` |
| C07 | same | false for the empty row on a full page: concrete refutation; `_partial` theorem for all other calls; invariant `RepW` (last slot may lie over the rows) gives the exact effect of adding an empty row |
| C08 | same | consequence of the refinement; false for the empty row on a full page: refutation and exact effect (`remove` is proved from `RepW`) |
| C09 | same | from `Rep` |
| C10 | same | fault analysis from `Rep` |
| C11 | `Path` ordering | lexicographic order laws by induction |
| C12 | prefix tests | list prefix; the proper variant is refuted (`self.len() == self.len()`) |
| C13, C14 | `extract`, `resolve_qualified_name` | induction on the name components against a relational walk |
| C15–C17, C71 | type lexer and grammar of `parser.lalrpop` | executable recursive descent proved sound and complete for the grammar relation; generated LALR automaton itself is not modelled |
| C18–C20 | `unroll_type`, `allocate_bitfields`, `calculate_layout` | invariants over the nested type; sorting lemmas |
| C21 | same | refuted by a concrete type and value; `_partial`: types in which every possible size of a case of an enum is a multiple of the alignments of the cases of the enums stored after it (`Spec/Smooth.lean`) |
| C22, C23, C25, C27, C28 | `encode_with_source`, `encoding_size*`, `Marshaller` | induction over the type; spec is a value tree and its list of leaves |
| C24 | `copy_bytes` | refuted (raw write past the slice); `_partial`: refused when the fixed part does not fit, and for all types without strings; `C24_outside_iff`: exactly the short buffers which end inside a string of the full encoding are overrun |
| C26 | tag masks with `chk` | refuted for every enum with 129–256 cases; exact (`↔`) for every value in both builds: with overflow checks encodable, without them readable from every buffer, iff every tag written has room in its word |
| C29 | readers | refuted by concrete values, and for every enum type and any two values (the tag and the contents are read from different bytes); `_partial`: only paths and kinds that exist in the type are read |
| C30 | layout | induction: erasing labels |
| C31 | `IntermediateDataSource` | induction over call sequences |
| C32 | `write_ch`, tokenizer string part | per-character lemma, induction on the string; refuted for NUL, some control characters, U+8000..U+FFFF |
| C33 | integer printing/parsing | decimal digits round trip |
| C34 | encoder, tokenizer, decoder | induction over the type with a continuation-passing token lemma; for the converse, induction over the value: the text of a value is read as a document of its shape, and a string that is not writable is read as a longer one |
| C35 | decoder | induction over the type |
| C36, C37 | `StructParser` | loop invariant relating the bit set to the fields seen |
| C38–C40 | decoder/tokenizer | refuted by concrete inputs; `_partial` where a positive part exists; C38_exactly characterises all panics of the decoder by the tokens it can have used (`Spec/JsonPanic.lean`) |
| C41, C42 | tokenizer | induction on remaining input |
| C43 | composition | from C25, C34, C35 |
| C44, C45 | `Location`, `utils.rs` | bit-vector arithmetic over `Nat` |
| C46 | `BufferListHead` operations on the buffer array | doubly linked list invariant (`Spec/BufferList`), refinement to sequences for all histories |
| C47–C53, C76 | `BufferPool` and the tasks that use it as a transition system; `buffer_access` and the release functions are atomic because they hold the mapping mutex; waiting on the condition variable, `pinned` and `submitted` are not modelled; `fetch` is a parameter | invariants over all interleavings (`Good`), invariant of executions without releases (`QuietInv`), of unused buffers in all executions (`FreshInv`) and of intact lists (`Intact`); several properties are refuted for every pool size |
| C54 | same transition system; lock acquisition, loading, release and guard drop are separate steps | refuted by a schedule; `_partial` invariants over all schedules |
| C55–C58, C72–C75 | `Model/Volume`: arithmetic of `VolumeManager::create`, `init_file_header`, constants, `next_volume`; files, UUIDs, the clock and the buffer contents are parameters | arithmetic; several refuted, most of them for all inputs |
| C59, C60 | `Name`, `Database` (`Model/SqlNames`, `Model/SqlSchema`); the Unicode uppercase table is a parameter `up : Char → List Char`, every theorem holds for all of them | order laws; induction over call sequences |
| C61 | `SetContext::resolve_table_name` | independent relation `Resolves` in `Spec/Sql`; `C61_columns` gives the row type of a table column by column |
| C62, C77 | `Expression::infer_type`, `SelectStatement::infer_type`; specification is an evaluator with SQL three-valued logic over an arbitrary engine (`Spec/SqlEval`, `Spec/SqlSound`) | mutual induction over the AST; refuted in general, `_partial` on the fragment `Clear` |
| C63 | CASE arms of `infer_type` | refuted for every CASE |
| C64 | all of `ast/typing.rs` | predicate `Safe` in `Spec/SqlSafe`; Hoare-style postconditions for every inference function; exactly: `Next`, `Dead` and `Reaches` in `Spec/SqlPanic`, which parts are looked at and which of them panic |
| C65, C66, C69 | `validate_type` of UPDATE, INSERT, DELETE | inversion of acceptance against `Spec/Sql` |
| C67, C68 | `ResultColumns`, `SetExpression` | induction over lists; C67 with a recursive description of every name given (`since`, `nameGiven`) and the clash of asked and generated names (`Clash`) |
| C78 | `validate_type` of UPDATE, INSERT, DELETE; the effect of the statements is specified in `Spec/SqlRun` | from C62, C65, C66, C77; refuted for two forms |
| C79, C83, C86 | `ScalarContext`, `TableExpression`, `ResultColumns` | the symbol table is determined by the relations bound so far (`symbolOf`); specification `Binds`, `Denotes` in `Spec/SqlScope` |
| C80–C82, C84, C85 | IN, WITH, ORDER BY, joins, column lists | refuted for all inputs, with the exact behaviour beside it |
| C95 | operators in `infer_type`, LIMIT and OFFSET | the declarative rules of `Spec/SqlRules`, by induction both ways |
| C96 | `SqlStatementParser::parse` against the writer of `Spec/SqlWriting` | the written words derive the statement by induction on it; conversely every derivation gives a writable statement |
| C97 | DESCRIBE, ATTACH, EXPLAIN | inversion of derivations, with C88 and C61 |
| C98 | `headerPosition`, `initFileHeader` | division with remainder, with the regions of C55 |
| C99 | `mappedSize`, `bufferSlice` | arithmetic |
| C100 | `parse`, grammar | induction over derivations: every production keeps its leaves, except the WITH clause of INSERT, DELETE and UPDATE |
| C101 | `parse`, grammar | induction over derivations: every production has its plain form |
| C102 | `Attribute.isAssignableTo` | case analysis, values of `Spec/SqlEval` |
| C103 | `Nsm` | outcomes of every step in closed form; `Spec/Page` says what a page claims |
| C104 | `Marshaller` | bounds on announced sizes, then every part is found and lies in the bytes; `Spec/Value` says what a part is |
| C105 | all functions with a `chk` parameter | `Spec/Builds.Agrees`; a congruence for `>>=`, `if` and `match`, then one lemma per function; the arithmetic itself against `BitVec` |
| C106 | pages, `Marshaller`, JSON | C05, C09, C20, C25 and C43 composed: a list of records with their rows refines the page |
| C107 | `get_row`, `append_row`, `insert_row`, `remove_row` | an equivalence per call for arbitrary bytes; with C103 the outcome (returns, panics, undefined) is determined |
| C108 | `write_ch`, `JsonEncoder::encode` with any `io::Write` | each emitter is a list of calls of `write` and `write_all` that depends on the data source only; induction over the list for an arbitrary sequence of answers |
| C109 | `JsonEncoder::encode` with any `io::Write` | as C108; agreement with the model that writes to a `Vec<u8>` |
| C110 | `nsm.rs`, `get_value`, `set_value` with addresses | every access is at a multiple of four from the start; otherwise the first access fails |
| C111 | `marshaller.rs`, rows of pages, buffers, with addresses | induction over layouts: the start of every case is a multiple of its alignment; refuted by a type and by an address; exact: a value is built part by part in which only the chosen enum shifts what follows |
| C112 | `Tokenizer` with its state, `value` | each function takes characters off the front of the text; the position is the number of bytes before it and the range is a part of the input |
| C113 | `Tokenizer` after `Err` | case analysis of where `next` stops; induction over the inside of strings; refuted by three texts |
| C114 | `JsonDecoder::parse` after `Err` | each parser changes only entries under its path, and leaves part of a value there; induction over the type, with the set of fields still to come as loop invariant; refuted by three texts |
| C115 | the buffer pool when tasks panic or are dropped | a task that ends early is replaced by one that waits for ever, so the invariant of C53, C54 and C76 applies to the system with these tasks; refuted by runs and by general theorems |
| C116 | `encode_with_source` with any source | converse of the encoding theorems: each slot of the layout is asked for, so it has an answer; induction over the nodes of the type |
| C117 | `Tokenizer::next` | a number ends where no longer number can begin: the parts of a number with what may not follow each of them |
| C118 | `buffer_ref`, `buffer_mut` | slices in use beside the pool; every slice of a careful owner belongs to a handle held, so C115 applies |
| C119 | buffer locks | a task that waits in vain waits for one that has a guard and can act; every such event makes a sum smaller |
| C120 | `resolve_table_name`, `initialize`, `validate_type` of all statements, `describe` | mutual induction over the AST: two contexts that resolve the names alike give the same outcome at every node |
| C121 | `encode_with_source`, `copy_bytes`, the getters of `Marshaller` | `encode` as an overlay of bits: induction over types, with disjoint bit ranges of the fixed fields and consecutive variable fields; the readers determine all these bits |
| C122 | `Model/FileTable`: all of `init_file_header` with the bytes of the record | a small reader of the documented format (`Spec/FileTable`); the outcome of each step for all records |
| C123 | the loops of `VolumeManager::create` for the mirror and the bitmap; the pool is a map from locations to buffers | induction over the blocks; the words of C56 as bytes |
| C124 | `Model/SqlStack`: all of `ast/typing.rs` once more, with the number of nested calls there is room for | `Spec/SqlStack`: the nesting of a statement; mutual induction over the syntax tree, and over derivations of the grammar for the bound by the length of the text |
| C125 | `Model/SqlCalls`: all of `ast/typing.rs` once more, returning the number of calls beside the outcome | `Spec/SqlCalls`: the number of parts of a statement; mutual induction over the syntax tree, and over derivations of the grammar for the bound by the words of the text; `Spec/SqlSteady`: statements of which every part is looked at, for the exact numbers here and in C124 |
| C126 | `Model/SqlTyping` | `Spec/SqlWidth`: the places of a query that columns come from; mutual induction over queries and tables, and over derivations of the grammar for the words of the text |
| C127 | `Model/JsonCalls`: the decoder with the calls of `parse`, their nesting, and the calls of `next` | `Spec/JsonCalls`: depth, values and tokens of the documents of a type; upper bounds by induction over types, exact numbers for documents from the denotation `Takes` |
| C128 | `Model/MarshallerCalls`: `encode_with_source` and `encoding_size_with_source` with the list of their calls | `Spec/MarshallerCalls`: the list of calls given by the value alone; the lists agree up to order, by induction over the type |
| C129 | all of `ast/typing.rs`, as for C64 | `Spec/SqlFlaw`: the flaws, one constructor for each situation; an error has a flaw by induction over the size of the part, and a part with a flaw is not accepted by cases |
| C130 | (model of C18-C23) | bytes read successfully are read the same with more behind (induction over the layout); the size found does not change if the bytes are cut there (part of the induction for C104) |
| C131 | (model of C58-C66) | type checking a statement is type checking its outline (mutual induction over the syntax) |
| C132 | (model of C58-C66) | each step of type checking is monotone in nullability (mutual induction over the syntax with a relation of contexts); IN is the exception |
| C133 | (model of C34-C36) | the documents taken for the old type are taken for the new one (induction over the spec relation), and C35 |
| C134 | (model of C18) | the alignment is the largest of the sizes given to the two sorts, then induction over types |
| C135 | (model of C18-C24) | the layouts differ only in added cases (induction over types, with C134 for the sorts); each function of the format only returns more with more cases |
| C136 | (model of C18-C24) | the layouts differ only in paths (induction over types; both sorts are stable), each path has one counterpart, and C28 for the other source |
| C137 | (model of C63, C64) | relation between the two statements, induction over the first: same successful results; lists after IN and rows by their characterisations, which do not mention an order |
| C138 | (model of C63, C65, C66, C79) | the symbol of a name is determined by the relations as a bag (C79); inference depends on the symbols only through look-up; C65 and C66 describe acceptance without an order |
| C139 | (model of C61-C70, C86) | symbol tables before and after renaming are related by look-up only; simultaneous induction over expressions, queries and tables; `t.*` excluded by `starFree`, and refuted by a renaming that exchanges two letters |
| C140 | (model of C15-C24) | sums of field sizes, which sorting and linking do not change; containers cost at most one word per tag; induction over the type, where an enum pays for the padding at its end and in front of the variable size fields of the record it is in |
| C141 | (model of C15-C24) | the size is a function of three multisets (sizes of fixed fields, bits of tags, alignments and sizes of variable size fields); sorting by size makes first fit depend on the multiset only; induction over the relation |
| C142 | (models of C05-C10, C15-C24) | bounds of C140 for every row; induction over the rows appended; C106 for reading back |
| C143 | (models of C15-C24) | the bits that C121 finds are a function of the layout, the tags and the lengths (`Layout.written`); a source that mixes the answers for both values |
| C144 | (models of C15-C24) | the induction of C121 for two values at once, counting the bits set differently |
| C145 | (models of C15-C24) | induction on the type for the only value presented; induction on the lists of encodings |
| C146 | (models of C32-C43) | the round trip of C34 with the only value presented of C145 |
| C147 | (models of C05-C10, C106) | the representation invariant of C05 bounds the padded rows; induction on the appended rows |
| C148 | (models of C05-C10, C106) | the representation invariant of C05 before and after both calls; the sizes of C144 |
| C70 | all of `ast/typing.rs` | the model is polymorphic in the name type: inference commutes with every map of names that preserves comparison (`Hom`) |

The SQL model: `BTreeMap<Name, V>` is an association list kept in key order and scanned with `Name`'s comparison
(`TMap`); inserting under an equal key keeps the old key and replaces the value, as `BTreeMap` does. `collect` into a map is
modelled as repeated insertion; since Rust 1.57 the standard library keeps the last of equal keys instead of the first
(`collectLast`), which differs only in the spelling of the key kept (`TMap.collectLast_keys`, `TMap.get_collectLast`) and
hence in the spelling of the columns of `t.*` when a table has two columns with equal names. Error messages are reduced to their kind. A Rust panic is `Stop.panic`,
a returned `Err` is `Stop.err`.

The repository does not execute SQL, so C62, C77 and C78 are stated against a reference evaluator written for this purpose
(`Spec/SqlEval`, `Spec/SqlRun`). It is part of the specification: readers have to agree that it says what SQL means. Scalars and
their operations are a parameter (`Engine`), so is the content of the tables (`Store`). Subqueries do not see the
enclosing query; joins with USING have the columns named once and first, as in standard SQL; NATURAL joins, which the grammar has only with ON or USING, have no meaning in it (evaluation fails); a run-time error is `none` and says nothing about types.

The writer of the JSON encoder (C108, C109) is the list of the answers it gives to calls of `write`; too short a list is a call
that has not returned. Writers that claim to have taken more than they were offered, or panic, are not modelled; `write_all` and
`write_fmt` are modelled by their documentation. All other JSON properties use the model with a `Vec<u8>` (`C109_vec`).

The state of the JSON tokenizer (C112, C113) is modelled in `Verif/Model/JsonMachine.lean`: the look-ahead character and the
iterator are the characters that are left, with the byte position of the first of them; `&str` is a list of characters and a
range of bytes is found by adding up the sizes of their UTF-8 encodings.

The data source after a failed parse (C114) is modelled in `Verif/Model/JsonFill.lean`: the decoder again, in a form that
returns the data source whatever the outcome. C114_agrees shows that it is the same decoder.

Tasks that end early (C115) are modelled in `Verif/Model/BufferStop.lean`. A panic ends the task and not the program, as
the mutex of `async_std` is not poisoned. A task is dropped only between its steps, and releases its guard and nothing
else. The `drop` of a handle panics in the source; this is one of the ways in which a task ends. Not modelled: that a
second panic while unwinding aborts the program.

That waiting ends (C119) needs that every task goes on: a lock that is free is given to a task that waits for it, and the
owner of a handle returns it. A reader may get a lock before a writer that has waited longer; which of the tasks that
may get it does is left open, so C119 is about what can happen and about all orders, and not about the time one task
waits if others keep asking.

Slices of buffers (C118) are modelled in `Verif/Model/BufferViews.lean` as a list of the slices in use. Which slices the
types allow is read off the signatures of `buffer_ref` and `buffer_mut`; the borrow checker is not modelled.

Addresses (C110, C111) are natural numbers, the address of the first byte of a slice is a parameter, and the alignment of a
primitive type is its size (for `u128` and `i128` this is so since Rust 1.77). Dereferencing `*const T` at an address
that is not a multiple is the fault `ub`; copying bytes needs no alignment.

Not expressible: nothing so far. Not modelled: async runtime and wake-ups (only the interleaving of the atomic
sections), file input/output (`mount`, `fetch`, `store` are `unimplemented!()` in the code), the
command line binaries.

The SQL parser (C87–C92): `src/sql/parser.rs` is the output of LALRPOP 0.19 for `src/sql/parser.lalrpop`, committed to the
repository. The model has its tables, its 223 reduce functions and its actions, written by the scripts in `tools/` and cited by
line; the driver loop and the `Matcher` are those of the dependency `lalrpop_util` 0.19, not in the repository, modelled from their
documented behaviour, as is the `regex` crate (leftmost-first matching of the anchored patterns).

* Specification: `Spec/SqlGrammar` has one inductive rule per alternative of `src/sql/parser.lalrpop` (transcribed from that file,
  not from the generated code); `Spec/SqlWords` has the patterns as regular expressions with the usual meaning and maximal munch.
* `Proof/SqlLrData` annotates every state with LR(1) items; `Proof/SqlLrCheck` checks the annotations against the tables by
  evaluation in the kernel; `Proof/SqlLrFacts` turns the checks into statements. The annotations are not trusted.
* Completeness (`SqlLrComplete`, `SqlGrammarDer`): the parser reproduces every derivation. Soundness (`SqlGrammarSem`,
  `SqlLrSound`): values on the stack stand for the words read. Termination: 19 per unread word plus weights of the stack
  symbols decreases. Error location (`SqlLrViable`): every stack can be completed to a statement.
* Texts (C93, C94): `Spec/SqlRespelt` says when two lists of words differ only in spelling, `Laid` in `Spec/SqlWords` when a text
  is words with white space between them; derivations of the grammar are carried over by induction (`SqlRespelt`,
  `SqlWordsSafe`), and what the lexer does at white space is derived from the patterns (`SqlLayout`).
* Panics exactly (C64, C94): every inference function panics if and only if the part is `Dead` or the part looked at next panics
  (`Proof/SqlPanic`); parts looked at are smaller, so there is a dead one at the end. `Proof/SqlPanicText`: parts of a statement
  that has a text have one too, which leaves two dead constructions.
* Writing (C96): `Spec/SqlWriting` writes a statement with parentheses by priority; `SqlWriting` derives the written words, and
  `SqlWritable` shows that only writable statements are derived.

## 4. Trusted base

### Kernel and axioms

Everything rests on the kernel of Lean 4.33.0. No module of Mathlib is imported, no axiom is declared, there is no `sorry`,
`native_decide` or `bv_decide`; `decide +kernel` evaluates in the kernel. The axioms each theorem `Cnn_...` depends on, as
`collectAxioms` (the function behind `#print axioms`) reports them:

* No axiom:
  `C60_create_table_panics`, `C64_scalars`.
* `propext` only:
  `C07_full_page_refuted`, `C08_full_page_refuted`, `C21_nested_alignment_refuted`, `C26_single_case_refuted`,
  `C49_locations_share_refuted`, `C52_written_data_refuted`, `C54_lock_handover_refuted`, `C55_outside_refuted`,
  `C59_equality`, `C72_align_unchecked`, `C75_timestamp_refuted`, `C97_type_names`, `C102_assignable`,
  `C103_damaged_refuted`, `C104_damaged_refuted`, `C105_buffer_pool`, `C105_marshaller`, `C105_pages`,
  `C105_volumes`, `C111_order_refuted`, `C114_empty_refuted`, `C114_leaves`, `C115_handles_refuted`,
  `C115_second_attempt_refuted`, `C115_stale_refuted`, `C118_kept_slice_refuted`, `C118_two_slices_refuted`.
* `propext` and `Quot.sound`:
  `C11_lexicographic`, `C12_proper_prefix_refuted`, `C13_extract`, `C14_names_unambiguous`, `C22_size_any`,
  `C31_map`, `C32_utf8_refuted`, `C45_blocks_overflow`, `C45_blocks_partial`, `C45_blocks_refuted`,
  `C47_new_pool_refuted`, `C55_whole`, `C57_default_block_refuted`, `C58_indices_refuted`, `C59_order`,
  `C59_transitive`, `C73_header_block`, `C98_slots_partial`, `C99_slices_partial`, `C105_arithmetic`, `C105_json`,
  `C105_json_binary_json`, `C108_interrupted_refuted`, `C108_whole_refuted`, `C110_pages_partial`,
  `C110_pages_refuted`, `C111_address_refuted`, `C111_buffers`, `C114_agrees`.
* `propext`, `Classical.choice` and `Quot.sound`: all the other theorems.

### What is trusted besides

The kernel checks that the theorems hold of the definitions in `Verif/Model`. That these definitions do what the Rust code does
is not checked by it; each cites the lines it stands for, and `Props/RepoTests.lean` runs the unit tests of the repository
on them. The conventions in section 2 are part of this, as is the behaviour assumed of the standard library: `Vec`,
`BTreeMap`, `sort_by`, `binary_search_by`, `str::from_utf8`, `char::from_u32`, integer parsing and printing, `write_all`. Parsing and
printing floats, `to_uppercase` and the classes of characters above U+007F are parameters; the theorems hold for all of them,
or say what they assume.

### Modelled and not modelled, by file

| File | Modelled | Not modelled |
|---|---|---|
| `src/core/util.rs` | `align`, `required_bits`, `log2`, `get_value`, `set_value` | the error type and its conversions |
| `src/core/nsm.rs` | all functions of `PageFormat` | – |
| `src/core/types/mod.rs`, `parser.lalrpop` | types, paths, `resolve`, `extract`, comparison; lexer and grammar of types | the generated LALR automaton (replaced by a recursive descent proved equivalent to the grammar) |
| `src/core/data_source.rs`, `value.rs`, `schema.rs` | the data sources, `IntermediateDataSource`, primitive values | `schema.rs` has declarations only |
| `src/core/marshaller.rs` | layouts, sizes, encoding, readers; once more with addresses in `Model/Aligned` | `Arc`; `Marshaller::new`, `encoding_size` and `encode` only delegate |
| `src/core/json/tokenizer.rs`, `decoder.rs`, `encoder.rs` | all functions, the decoder also step by step over tokens, the encoder also over a failing writer; of the stack the number of nested calls of the decoder | message texts; the size of the frames |
| `src/sql/parser.rs` | lexer patterns, the action, goto and reduction tables, the driver of the LALR parser, all actions | `regex` (replaced by a matcher for the patterns that occur); message texts |
| `src/sql/parser.lalrpop` | the grammar, as the specification in `Spec/SqlGrammar` | – |
| `src/sql/ast/mod.rs`, `typing.rs` | the syntax tree, all inference and validation functions | message texts (errors are told apart by the place that makes them); of the stack only the number of nested calls of the functions that call each other, not the size of their frames |
| `src/sql/schema.rs`, `symbols.rs`, `types.rs` | catalogue, names, data types, row sets | serialisation derived by `serde` |
| `src/sql/mod.rs` | – | the error type and its conversions |
| `src/storage/mod.rs` | locations, volume parameters and creation, file headers, timestamps, bitmap; buffer lists, pool, handles and locks as a transition system; memory and slices of the buffers | the operating system (files, `mmap`, clock, UUID: parameters or left out); the async runtime; `mount`, `unmount`, `fetch`, `store`, `unmap` (`unimplemented!()` in the code); `VolumeManager::drop`, whose counter no code changes |
| `src/storage/utils.rs`, `src/common/mod.rs` | alignment functions, block counts, `any_as_u8_slice` as the bytes of the header | – |
| `src/bin/*`, `src/lib.rs`, `build.rs` | – | no behaviour besides printing and module declarations |
