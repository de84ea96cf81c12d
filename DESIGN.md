# Formal model of cgwavefront_obj

`/repo` is a Rust library: a lexer (`src/lexer.rs`), an OBJ parser (`src/obj.rs`), an MTL
parser (`src/mtl.rs`) and `Display` implementations. `lean/` holds a Lean 4 model of it and
kernel-checked proofs of the properties in `properties.jsonl`.

## Layers

| layer | files | what |
|-------|-------|------|
| std   | `Verif/Basic.lean` | bytes, decimal printing, `str::parse::<isize/usize>`, the grammar of strings `str::parse::<f64>` accepts, `str::split('/')` |
| lexer | `Verif/Model/Lexer.lean` | `Lexer`, `PeekableLexer`, field for field |
| monad | `Verif/Model/Parser.lean` | parser state (line number, token source), outcomes `ok`, `err`, `panic`, `outOfFuel` |
| obj   | `Verif/Model/Obj.lean` | every function of `obj::Parser`, `triangulate`, `verify_vtn_indices`, `get_vtn_triple` |
| mtl   | `Verif/Model/Mtl.lean` | every function of `mtl::Parser` |
| display | `Verif/Model/Display.lean` | the `Display` implementations of both modules |
| compare | `Verif/Model/Compare.lean` | the derived `PartialEq`, `PartialOrd` and `Ord`, over any comparison of numbers |
| default | `Verif/Model/Default.lean` | the derived `Default` of `Object` |
| numbers | `Verif/Model/Float.lean` | `f64` as IEEE binary64: reading, `==`, `partial_cmp`, `Display` |
| counters | `Verif/Model/Checked.lean`, `Verif/Model/Machine.lean` | parser and lexer again, with machine additions on every `usize` counter |
| reads | `Verif/Model/Reads.lean` | the lexer again, counting every `Lexer::peek` |
| spec  | `Verif/Spec/*.lean` | specifications that do not mention the model's functions |
| proofs | `Verif/Proofs/*.lean` | lemmas, refinement |
| properties | `Verif/Props/*.lean` | the property theorems, with examples that meet their hypotheses |
| tests | `Verif/Tests/CrateTests.lean` | the tests of the crate, as examples checked by the kernel |

The parsers are written once, generically over a token source (`TokStream`). The model of
the code instantiates it with the model of `PeekableLexer` reading bytes. For proofs there
is a second instance, a list of tokens; a simulation theorem shows that both give the same
outcome on every input.

Loops carry fuel (`input.length + 1` at top level). Running out of fuel is a separate
outcome and proved impossible (C07), so fuel is not a simplification. A panic is an explicit
outcome too, so "never panics" is a theorem. `&mut Vec` parameters become returned lists.
The parser state is returned also on `Err`, because `parse_vtn_indices` goes on after
swallowing an error.

The build profile is a parameter `Cfg` (overflow checks, debug assertions); theorems hold
for all four profiles unless they say otherwise.

## How to read a statement

`Obj.parse cfg input` and `Mtl.parse input` are the models of `obj::parse` and `mtl::parse`
on the bytes of the string. `F` is the type of floating point numbers; `FloatSem F` gives
the value of an accepted token, 0 and 1. It is uninterpreted: theorems hold for every
choice, `f64` included. C81 to C84 are about `F64`, a model of `f64`; it also satisfies the laws
that C34 (`LawfulFloat`) and C73 (`IeeeEq`) ask of `F`.

OBJ theorems assume `input.length < 2 ^ 63`: a Rust allocation is at most `isize::MAX` bytes.
Without it, the model's vertex counters would not fit the cast to `isize` in `calculate_index`.

## Properties

Axioms are `propext`, `Classical.choice`, `Quot.sound` for every theorem in the table,
except where marked: (p) `propext` only, (pq) `propext` and `Quot.sound`, (none) no axiom.
The suffix `_refuted` marks the proof that the claim, as stated, is false of the code.
All properties could be expressed; none is "not applicable".

| id | property | status | how | theorems |
|----|----------|--------|-----|----------|
| C01 | Tokenisation is line/comment/word splitting | proved | `tokens` (Spec/Lexer.lean, 3 small functions over lines and words) equals the list obtained by running the byte lexer to the end; induction on the input. | `C01_tokenisation` (pq), `C01_token_shape` (pq), `C01_token_position` (pq) |
| C02 | The unchecked UTF-8 conversion is sound | proved | The lexer's slices are the bytes of contiguous runs of characters, because every byte it stops at is ASCII; `ByteArray.IsValidUTF8` of the standard library. | `C02_utf8` (pq), `C02_tokens_of_characters` (pq), `C02_encode_is_utf8` |
| C03 | The lexer never stops early and never restarts | proved | Induction on the remaining input; progress of `next_token`. | `C03_none_only_at_end` (pq), `C03_none_forever` (pq), `C03_progress` (pq) |
| C04 | Peeking is transparent | proved | Refinement of `PeekableLexer` to a cursor over a list, for every list of operations. | `C04_peek_transparent` (pq) |
| C05 | Comments are invisible | proved | Same token list (C01) implies same outcome: outcomes only depend on the token list. | `C05_comments_obj`, `C05_comments_mtl` |
| C06 | Amount and kind of blank space is irrelevant | proved | As C05. | `C06_swap_blank_obj`, `C06_double_blank_obj`, `C06_swap_blank_mtl`, `C06_double_blank_mtl` |
| C07 | Parsing terminates | proved | Loops carry fuel; fuel is proved sufficient and more fuel irrelevant. | `C07_terminates_obj`, `C07_terminates_mtl` |
| C08 | mtl::parse never panics | proved | From the exact language C29: every outcome is ok or err. | `C08_mtl_never_panics` |
| C09 | obj::parse never panics | partial | False. Negation with witnesses, and the exact criterion. | `C09_refuted`, `C09_refuted_overflow` (p), `C09_exact`, `C09_panic_sites_partial` |
| C10 | Every stored index resolves | proved | Invariant of the meaning function over all statements: stored positions are below the table sizes. | `C10_indices_resolve` |
| C11 | Index forms are uniform within a statement | proved | From the grammar (`Uniform`), and separate rejection theorems. | `C11_uniform_elements`, `C11_mixed_line_rejected`, `C11_mixed_face_rejected` |
| C12 | Shape entries are in bijection with elements | proved | Invariant of the meaning function. | `C12_shape_bijection`, `C12_shape_entries` |
| C13 | Group and smoothing-group indices are in bounds | proved | Invariant of the meaning function. | `C13_in_bounds` |
| C14 | Geometries partition the elements | proved | Invariant of the meaning function: geometries so far plus the open one are `range n`. | `C14_geometry_partition` |
| C15 | Group attribution | partial | False for `g` without names. Proved otherwise by splitting the statement list at the element. | `C15_groups_partial`, `C15_groups_exact`, `C15_refuted` (p) |
| C16 | Smoothing-group attribution | proved | As C15, attribute defined by `filterMap`/`getLast?` over the statements before (Spec/Attributes.lean). | `C16_smoothing` |
| C17 | Material attribution | proved | As C16. | `C17_material` |
| C18 | Vertex data is stored faithfully and in order | proved | Tables are `filterMap` of the statements. | `C18_vertex_data` |
| C19 | Indices count statements in file order | proved | Positions in the object plus the counts of earlier objects are file-wide positions. | `C19_indices_denote` |
| C20 | Polygons become triangle fans, polylines become segments | proved | Elements of an object are the concatenation of the fans and segments of its statements; closed forms by index. | `C20_elements`, `C20_fan_and_segments` (pq) |
| C21 | Out-of-range indices are reported | partial | False: swallowed tokens. Proved for the indices that are checked. | `C21_points`, `C21_lines_partial`, `C21_faces_partial`, `C21_refuted` (p), `C21_swallowed` (p) |
| C22 | Relative indices work | partial | False. Proved: never accepted. | `C22_refuted` |
| C23 | Objects are delimited by o statements | proved | From the grammar; an explicit split of the token list at `o`. | `C23_objects`, `C23_no_leak` (pq) |
| C24 | Material libraries are collected from the head of the file | proved | From the grammar. | `C24_libraries`, `C24_late_rejected` |
| C25 | Error line numbers are real line numbers | proved | Line number is 1 plus newline tokens consumed (invariant of every function). | `C25_lines_obj`, `C25_lines_mtl` |
| C26 | Unsupported statements are reported on their own line | proved | As C25, with the token located in the input bytes. | `C26_position_obj`, `C26_position_mtl` |
| C27 | Exact language and meaning of OBJ files | proved | The central refinement theorem: grammar relations `FileOk`, `FileErr`, `FilePanic` (Spec/Obj.lean) are total, exclusive and decide the outcome; result is `meaning`. | `C27_language`, `C27_unambiguous`, `C27_errors`, `C27_objects_not_bare` |
| C28 | Writing then reading an OBJ file is the identity | proved | `FileAst.text` printed, tokenised and derived in the grammar; `ValidFile` explicit and decidable in parts; every accepted text has such a normal form. | `C28_write_read`, `C28_read_valid`, `C28_normal_form` |
| C29 | Exact language and meaning of MTL files | proved | As C27 for MTL (Spec/Mtl.lean). | `C29_language`, `C29_unambiguous` (p), `C29_errors` |
| C30 | Each MTL statement sets its own attribute; the last one wins | proved | Meaning is `last` statement per field. | `C30_last_wins`, `C30_default`, `C30_materials` |
| C31 | MTL statement order is irrelevant between different attributes | proved | From C29 and `last`. | `C31_swap` |
| C32 | MTL files concatenate | proved | Grammar derivations append. | `C32_concatenation` |
| C33 | MTL rejects what it does not understand | proved | Error derivations of C29. | `C33_unknown_statement`, `C33_unknown_anywhere`, `C33_illumination`, `C33_text_before_newmtl` |
| C34 | Displayed elements read back | proved | Parser functions run on the displayed text, result computed symbolically for all values. | `C34_index`, `C34_element`, `C34_object` |
| C35 | has_same_type_as is an equivalence | proved | Case analysis. | `C35_exact` (p), `C35_equivalence` (p), `C35_values` (p) |
| C36 | get_vtn_triple is exact | proved | Case analysis against a relational specification. | `C36_exact` (pq), `C36_some_iff` (pq) |
| C37 | Integer tokens | proved | Digit-by-digit induction; specification is a numeral with a value. | `C37_index`, `C37_smoothing`, `C37_print_index`, `C37_print_usize`, `C37_print_text` |
| C38 | A final newline does not matter | proved | Grammar derivations extend by a newline. | `C38_final_newline_obj`, `C38_final_newline_mtl` |
| C39 | Leading blank lines only shift line numbers | proved | As C38, and line numbers shift. | `C39_leading_newlines_obj`, `C39_leading_newlines_mtl` |
| C40 | Counters cannot overflow | proved | Second models (Model/Checked.lean, Model/Machine.lean) with machine additions; simulation, with limit input length plus one. | `C40_obj`, `C40_usize`, `C40_mtl` |
| C41 | Names are clean words | partial | False. Exact description of the possible names. | `C41_names_partial`, `C41_refuted` (p) |
| C42 | Smoothing groups display and read back | proved | Display then `parseUsize`. | `C42_read_back`, `C42_off`, `C42_injective` |
| C43 | A finished parser stays finished | proved | Parser state after success has no tokens left; rerun from that state. | `C43_finished_obj`, `C43_finished_mtl` |
| C44 | CRLF files parse like LF files | partial | False. Negation with witness and general rejection theorem. | `C44_refuted` (p), `C44_rejected` |
| C45 | Every element belongs to a group | partial | False for `g` without names. | `C45_groups_partial`, `C45_refuted` (p) |
| C46 | OBJ files concatenate at object boundaries | proved | Grammar derivations append. | `C46_append_object`, `C46_prefix_kept` |
| C47 | Unknown OBJ statements are rejected | proved | The line either starts a statement (rejected) or is preceded by an error or panic. | `C47_unknown_line_rejected`, `C47_first_line_rejected` |
| C48 | Displaying a parse result never panics | proved | Display model with explicit panic outcome; indices bounded through C10. | `C48_display_total` |
| C49 | The text of an error identifies it | proved | Injectivity of the printed form. | `C49_error_text`, `C49_error_form` |
| C50 | Exact panic criterion of obj::parse | proved | From the panic derivations of C27. | `C50_panics_iff`, `C50_panic_site`, `C50_bare_object` |
| C51 | Exact group attribution | proved | As C15, exact rule. | `C51_groups` |
| C52 | Which out-of-range indices are reported | proved | From the grammar; two texts that differ in a swallowed token have the same statements (Proofs/Twin.lean). | `C52_reported`, `C52_swallowed`, `C52_forgotten`, `C21_swallowed` (p) |
| C53 | Non-positive indices are never accepted | proved | From the grammar. | `C53_nonpositive` |
| C54 | What names can be | proved | Names are tokens at known positions (C01). | `C54_names`, `C54_empty_name` |
| C55 | A carriage return is a statement of its own | proved | From the error derivations. | `C55_carriage_return`, `C44_refuted` (p) |
| C56 | Every element has a group if all g statements have names | proved | From C51. | `C56_every_element_has_a_group` |
| C57 | The build profile only matters for one overflow | proved | Grammar relations for two profiles compared. | `C57_assertions`, `C57_overflow_checks`, `C57_same_index`, `C57_same_result` |
| C58 | A fault in complete lines is final | proved | Error derivations extend to longer token lists (Proofs/Stable.lean). | `C58_final_mtl`, `C58_final_obj`, `C58_final_panic` |
| C59 | The tables are no larger than the text | proved | Every statement has more tokens than it adds entries; an element needs a `v`, which pays for the defaults. | `C59_tables`, `C59_bytes`, `C59_groups`, `C59_quadratic`, `C59_reached`, `C59_materials` |
| C60 | Empty lines change nothing | proved | A derivation survives doubling a newline token (Proofs/Cut.lean). | `C60_empty_line_obj`, `C60_empty_line_mtl`, `C60_last_line_mtl` |
| C61 | The parser does not compute with numbers | proved | The meaning of a syntax tree commutes with maps of numbers; success, errors and panics are decided by the grammar, which has no numbers. | `C61_numbers_obj`, `C61_numbers_mtl` |
| C62 | An error is caused by the lines up to the reported one | proved | Error derivations restrict to the tokens read (Proofs/Restrict.lean) and extend (C58). | `C62_enough_mtl`, `C62_enough_obj`, `C62_same_mtl`, `C62_same_obj`, `C62_before_mtl`, `C62_before_obj` |
| C63 | Texts can be cut between objects and between materials | proved | Derivations split at `o` and `newmtl` (Proofs/Cut.lean). | `C63_cut_obj`, `C63_cut_mtl` |
| C64 | The documented OBJ grammar is accepted | proved | Transcription of GRAMMAR.md over token lines (Spec/Doc.lean); each line is a statement of the grammar of C27. | `C64_documented_obj` |
| C65 | The documented MTL grammar is accepted | proved | As C64, into the grammar of C29. | `C65_documented_mtl` |
| C66 | Free-form geometry is rejected | proved | From C47, for lines of the text. | `C66_free_form_rejected` |
| C67 | The lexer's line counter | proved | Invariant of `advance` and of the loops of the lexer. | `C67_line_counter` (pq), `C67_whole_text` |
| C68 | Which words are numbers | proved | The model's recogniser is equivalent to a declarative grammar (`isFloat_iff`), lifted to `parse_f64` of both parsers. | `C68_float_obj`, `C68_float_mtl`, `C68_integers_are_floats` |
| C69 | Error messages | proved | From the characterisation of errors; every kind has a witness. | `C69_obj_message`, `C69_obj_kinds`, `C69_mtl_message`, `C69_mtl_kinds` |
| C70 | Order of lines | proved | Swapping lines of a derivation of the grammar keeps the counts and the meaning (`file_swap`). | `C70_swap` |
| C71 | Writing MTL files | proved | The written text is a derivation of the grammar with the right meaning; names of results are tokens. | `C71_write_read`, `C71_normal_form`, `C71_values`, `C71_read_write` |
| C72 | Linearly many calls of the lexer | proved | Amortised accounting: each function of the parser spends at most eight calls per token consumed plus a constant. | `C72_calls_obj`, `C72_calls_mtl` |
| C73 | Derived comparisons | proved | The derived comparisons are modelled with an arbitrary comparison of numbers (Model/Compare.lean); every type is split into its numbers and the rest. | `C73_equality_obj`, `C73_equality_mtl`, `C73_self_obj`, `C73_self_mtl`, `C73_nan_obj`, `C73_no_nan_obj`, `C73_nan_mtl`, `C73_no_nan_mtl`, `C73_color_order` (pq), `C73_illumination_order` (none), `C73_equality_triple` (pq), `C73_lookup` (pq) |
| C74 | Contracts of the parser methods | proved | A compositional predicate on methods (Proofs/Framed.lean) carries the tokens taken and the line counter through every method; the words and the optional parts follow from the first call of each method. | `C74_lines_obj` (pq), `C74_lines_mtl` (pq), `C74_words_obj` (pq), `C74_words_mtl` (pq), `C74_optional` (pq), `C74_index` |
| C75 | Objects do not depend on their neighbours | proved | Adding the counts of what stands in front to every reference leaves the meaning and validity of a statement list as they are; with the meaning of accepted texts (C27) and the written form (C28) this gives statements about parse. | `C75_same`, `C75_extract`, `C75_join` |
| C76 | Splitting statements | proved | Two token lists that differ in statements with the same effect on every object under construction have the same outcome (Proofs/Splice); a fan, a polyline and a list of points are the concatenation of their two parts. | `C76_face`, `C76_line`, `C76_points`, `C76_material` |
| C77 | Spelling of integers | proved | Leading zeros and a plus sign do not change the value of a numeral, so both spellings are the same statement; then as for C76. | `C77_references`, `C77_points`, `C77_smoothing` |
| C78 | What the display shows | proved | The display is a list of lines without line feeds (a name that is a line feed takes two), so it determines them; each line determines its entries, because entries are written without closing parentheses (or, group names, without blanks) and different entries of parsed objects have different texts. | `C78_display`, `C78_object` |
| C79 | Exchanging statements of a material | proved | The first text part leads to the same place in both texts (Proofs/MtlLines), both runs of lines are read completely, and the last value of each attribute is the same in both. | `C79_exchange`, `C79_overridden`, `C79_spelling` |
| C80 | Names are just names | proved | Renaming is defined on words (which words are names follows from the keyword in front); every derivation of the grammar, of an error and of a panic is carried over, and the meaning of the renamed file is the renamed meaning. | `C80_obj`, `C80_mtl` |
| C81 | Numbers are correctly rounded | proved | Model/Float.lean has binary64 and reads decimal numbers with integer arithmetic; the specification is IEEE rounding of rational numbers. The 53 leading bits are the largest number below, and comparing with the middle of two neighbours decides; rounding has only one result. | `C81_value`, `C81_reads`, `C81_obj`, `C81_mtl`, `C81_mtl_default`, `C81_one`, `C81_zero`, `C81_exact`, `C81_integer`, `C81_order` |
| C82 | Spelling of coordinates | proved | Both lines are one statement with the same effect; splicing carries over the rest (as in C76). Uniqueness of rounding gives the second part. | `C82_coordinates`, `C82_numerals` |
| C83 | Printing numbers loses nothing | proved | The digits are searched from the largest power of ten down; the search ends because every number is a multiple of 10^-1074, and rounding is monotone. | `C83_read_back`, `C83_injective`, `C83_shortest`, `C83_plain`, `C83_canonical`, `C83_others` (pq), `C83_object` |
| C84 | Numbers are compared as numbers | proved | The bits without the sign are ordered like the numbers; the results are compared field by field (C73). | `C84_order`, `C84_equal`, `C84_obj`, `C84_mtl`, `C84_symm`, `C84_trans`, `C84_color`, `C84_color_order`, `C84_triple` |
| C85 | Each byte is looked at a bounded number of times | proved | One token costs at most two looks per byte passed and four more; the number of calls is C72; the two lexers are related by a simulation. | `C85_reads_obj`, `C85_reads_mtl` |
| C86 | Display of indices, elements and objects in general | proved | Case analysis on the forms; the texts are told apart by splitting at the slashes. | `C86_index_text` (pq), `C86_index_panics`, `C86_index_injective`, `C86_element_text` (pq), `C86_element_panics`, `C86_element_injective`, `C86_object_panics`, `C86_set_panics` (pq) |
| C87 | Calling a parser again continues with the rest of the text | proved | Every method takes tokens from the front and keeps the line counter in step (Framed, C74), so after any calls the parser holds a tail of the token sequence, which is the token sequence of a tail of the text; on it the verdict of the grammar applies as for a new parser. An unknown word is only peeked, so it heads the tail again. | `C87_resume_obj`, `C87_resume_mtl`, `C87_stuck_obj`, `C87_stuck_mtl` |
| C88 | What an object shows | proved | The statements before an element fix its attributes (C15 to C17, C51) and its data (C19), position by position; lookups in lists with an inserted entry; validity of the renumbered file and C28. | `C88_scene`, `C88_renumber`, `C88_insert` |
| C89 | Which object sets can be results | proved | `WellFormed` (Props/Image.lean) is a list of conditions on the tables of an object and mentions no text, statement or parser state. `C89_results`: every result has them, by an invariant of the fold over the statements. `write` makes a file from the tables alone. `C89_writer`: reading the written text gives the object set back, by following the fold through the written statements; `C89_iff` puts the two together. The example after it is an object set that no text gives: an element returns to a group after one without groups. | `C89_results`, `C89_writer`, `C89_write_read`, `C89_iff`, `C89_materials` |
| C90 | Reading more lines only adds to the result | proved | `Grows` (Props/Grow.lean) compares two objects table by table, with list prefixes only. `C90_grows_obj`: a statement of complete lines is the same statement when more tokens follow (`stmt_extend`), so the abstract syntax of the first lines is a prefix of that of the whole, and the fold over statements only appends (`Ext.fold`, `geometries_grow`). `C90_lines_obj` combines C58 and C09. `C90_grows_mtl` is the same for materials; acceptance of the first lines comes from C58. | `C90_grows_obj`, `C90_lines_obj`, `C90_grows_mtl` |
| C91 | What each method of the lexer does | proved | Each method of the model is described by the bytes ahead of the cursor (takeWhile over the remaining text); Moved composes, so next_token follows from its three parts. C91_counting says that the model with counted looks (C85) has the same methods. | `C91_peek` (p), `C91_skip`, `C91_skip_blank`, `C91_next_token`, `C91_peekable` (p), `C91_counting` (pq) |
| C92 | What long numerals are read as | proved | The loop over the digits of an exponent (Model/Float.lean: exponentDigits) yields the first prefix whose value exceeds 65535. Otherwise the exponent is below 655360 and read exactly; where it is not, a short numeral overflows to infinity or is rounded to 0 either way. C81 was first stated for numerals of any length, with exponents left unbounded in the model; C92_sharp shows that this is false of the code. | `C92_numeral`, `C92_moderate`, `C92_sharp` |
| C93 | Nothing is read that the text does not name | proved | The words a statement starts with (`Item.word`, Proofs/Swap.lean) form, in file order, a sublist of the tokens (`file_words`, by induction over the grammar); the tables of an object are compared with these words by induction over its statements (`Acc.Within`). The same for materials; `C93_kept` finds the statements added by further lines among the tokens of these lines (`mats_more`). | `C93_tables`, `C93_defaults`, `C93_absent`, `C93_objects`, `C93_mtl`, `C93_kept` |
| C94 | The parsers do the same on a target of any pointer width | proved | Model/Width.lean has the functions that depend on the width with the number of bits as a parameter. A relation between two runs on a token list (Proofs/Width.lean: same states, the remaining tokens satisfy the conditions, errors equal under the stronger condition only) is carried through every method; the bounds on counters are the invariants of C40. | `C94_obj`, `C94_accept`, `C94_wide`, `C94_machine`, `C94_mtl`, `C94_mtl_errors` |
| C95 | Triangulation keeps the surface | proved | Props/Mesh.lean defines edges, boundary, closed surfaces and the signed area of a polygon on lists, without the model. By induction on the corners the edges of a fan are a permutation of sides and pairs of opposite diagonals, and the areas of a fan add up to the shoelace sum; validity of the references makes the step from stored to written indices injective; the vertices are those of C19. | `C95_edges`, `C95_boundary`, `C95_closed`, `C95_area`, `C95_segments`, `C95_ends` |
| C96 | MTL texts can be judged with finite memory, OBJ texts cannot | proved | Props/Regular.lean: functions computed by a finite automaton are closed under pairs, maps of symbols, dropping a sign, and reading a text token by token; comparison with a word, the syntax of floats and bounded integers are such functions (explicit automata); the grammar of Spec/Mtl.lean is followed by an automaton on classes of tokens. Regular languages are those of Mathlib. For OBJ, texts with n vertices are told apart by a point statement (C21), as in the theorem of Myhill and Nerode. | `C96_mtl_accepted`, `C96_mtl_rejected`, `C96_obj` |
| C97 | What later lines see of earlier lines | proved | Props/Context.lean: complete lines of the last object are a run of statements that can be continued (Proofs/Splice.lean, Props/Grow.lean); the outcome of the rest depends on the two counts only, by totality of the grammar. Conversely a vertex, a texture vertex, a normal and a face with chosen references are accepted exactly if the references are in range, which determines the counts. | `C97_same`, `C97_differ` |
| C98 | What later lines of a material library see of earlier lines | proved | The position reached after complete lines is described by At (Proofs/MtlLines): the finished materials, the name and statements of the last one. What follows is then judged by the grammar alone, and the meaning of an attribute is decided by the last statement about it, which is either one of the new lines or not. | `C98_same`, `C98_differ` |
| C99 | Defaults | proved | The default object has no geometry, and every parsed object has one (C14). The first element is looked up with C51 and C16, with the values of the Default implementations in the model. | `C99_object`, `C99_not_parsed`, `C99_first_element`, `C99_material` |
| C100 | Triangles of a convex polygon | proved | Props/Convex.lean: Spec.Mesh has left-of-a-line, Convex, Inside, Covers, Within. Covering: the last diagonal from the first corner that has the point on its left ends at a corner of a triangle with it. The converse and disjointness use the identity that writes a point as a combination of the corners of a triangle. The triangles are those of C19, by position. A pentagon is the concrete case. | `C100_orientation`, `C100_cover`, `C100_disjoint` |
| C101 | Winding numbers of polygons | proved | Props/Winding.lean: Spec.Mesh has the sum around a polygon, the crossing number of a side with a ray and the winding number as their sum. The diagonals of a fan cancel (induction on the corners); crossing numbers change sign with the direction; for one triangle the claim is a case distinction on the heights of the corners and the sides of the point. A quadrilateral with a notch is the concrete case. | `C101_circulation`, `C101_winding` |
| C102 | The Debug text of a value identifies it | proved | Model/Debug.lean models the derived implementations and those of the standard library they use. Proofs/Debug.lean has prefix-code arguments: a text of a value followed by something a value of that kind cannot be continued with determines both the value and the rest (Code.injective), closed under structures, tuples, lists, options and quoted strings. Props/Debug.lean applies it to every type; numbers come from the theory of f64 numerals (C81). Props/Strings.lean discharges the hypothesis on strings for results of the parsers by C103. | `C102_objects`, `C102_object`, `C102_triple`, `C102_materials`, `C102_coordinates`, `C102_parts`, `C102_errors`, `C102_number`, `C102_obj_results`, `C102_obj_errors`, `C102_mtl_results`, `C102_mtl_errors` |
| C103 | The strings in a result are strings of characters | proved | Props/Strings.lean: induction over the grammar relations shows that names in the syntax tree are tokens; the meaning adds only the default names. Tokens of a text of characters are UTF-8 since white space, quotes of comments and slashes are ASCII (splitting at an ASCII byte keeps the parts UTF-8). Messages are ASCII text around a token or a part of one between slashes. | `C103_objects`, `C103_objects_utf8`, `C103_obj_message`, `C103_materials`, `C103_materials_utf8`, `C103_mtl_message` |
| C104 | Display on a target of any pointer width | proved | Model/WidthDisplay.lean has the Display implementations with the width as a parameter. Props/WidthDisplay.lean: case distinction on the indices; stored indices are below the lengths of the tables (C36, C10), which are at most the length of the text (C59), so adding one does not overflow; C94 gives the result of the narrow parser. | `C104_index_text` (pq), `C104_index_panics`, `C104_element_text` (pq), `C104_element_panics`, `C104_object_panics`, `C104_wide` (pq), `C104_display`, `C104_results` |
| C105 | Shape of the triangulated surface | proved | Props/Euler.lean: by C95 the edges of the triangles are the sides and the diagonals in both directions; diagonals join corners of a polygon, which its sides join too; a polygon of n corners has n-3 diagonals and becomes n-2 triangles. A cube is the concrete case; two quadrilaterals with the same corners show that the condition on diagonals is needed. | `C105_vertices`, `C105_joined`, `C105_sides`, `C105_euler` |
| C106 | Copies are the values they copy | proved | Derived Clone and Hash are written field by field in Model/Clone.lean; copying is shown to be the identity and combined with C73. | `C106_obj` (p), `C106_mtl` (p), `C106_errors` (p), `C106_equal_obj`, `C106_equal_mtl`, `C106_parser` (p), `C106_hash` (none), `C106_shape_debug` |
| C107 | The alternate Debug text of a value identifies it | proved | Model/Pretty.lean, Proofs/Pretty.lean: an indented block ends at the first line that does not begin with a space, so the lines of a block are determined, and in them every value is followed by a comma; then as C102. Proofs/Layout.lean, Props/Layout.lean: the lines of a value are one line or a block, and indenting adds one to the depth of every line. | `C107_objects`, `C107_object`, `C107_materials`, `C107_obj_results`, `C107_mtl_results`, `C107_coordinates`, `C107_parts`, `C107_errors`, `C107_layout_obj`, `C107_layout_mtl` |

The seven partial properties are false of the code. Each has a refutation, a `_partial`
theorem or an exact one, and a further property with the true statement (C50 to C56).

## Findings about the code

Each is a theorem or a checked example.

* `obj::parse` panics (obj.rs:1249) on an object without element and without `usemtl`, e.g.
  `"v 0 0 0\n"` (C09, C50).
* In builds with overflow checks it panics (obj.rs:884) on a very negative index; other
  builds wrap around and report an index out of range (C57).
* Negative indices are never accepted (C22, C53).
* `parse_vtn_indices` swallows the first token that is not a reference. `f 1 2 3 99` is
  accepted as `f 1 2 3`, also when 99 does not exist; the swallowed token can be `o` (C21, C52).
* For the same reason the newline of a face is consumed before an error is reported, so the
  line is one too high (checked in Props/Local; hence the `n - 2` in C62).
* An index only sees vertices of its own object, and only those defined before it (C27).
* `usemtl`, `newmtl`, `map_*` and `o` at the end of a line take the newline as a name (C41, C54).
* `o` at the end of a text is rejected, but `o` followed by an empty line is accepted (C58).
* CR is a token: CRLF files are rejected, or CR becomes a name (C44, C55).
* `g` without names after another group leaves the following elements without group (C45, C51).
* `\` is a blank, so it does not continue lines (C01).
* `mtllib` is only accepted at the head of the file (C24).
* Statements need not end at the end of their line: `v 0 0 0 v 1 1 1` is two statements (C27).
* GRAMMAR.md lists `Tf`, `vp`, signed numbers and any illumination model; the parser rejects
  them (C33, C64, C65). It does not list `mtllib`, `usemtl` and lines with two vertices, which
  are accepted.
* The line counter of the lexer counts a CR LF twice; it is never read (C67).
* The documentation of `Vertex` says that w defaults to 0; it is 1 (C18).
* Every shape entry holds a copy of the list of groups, so a text can make the parser store
  quadratically many numbers (C59).
* On a 32-bit target a smoothing group above 4294967295 is rejected, and an index near -2147483648 panics in
  builds with overflow checks (C94).
* A text with a NaN has a result that differs from itself, so `assert_eq!` of two parses fails (C73).
* `Display` of an object closes two braces (Model/Display.lean).

## Trusted base

* Lean's kernel and the three standard axioms, as listed per theorem. No `sorry`, no
  `native_decide`, no `bv_decide`, no axiom of our own.
* The reading of the Rust code into the model. Every definition cites its lines. The 83
  tests of the crate in `Verif/Tests/CrateTests.lean` hold of the model; `tests/` with the
  teapot file was evaluated once outside of this repository and agrees.
* Rust's standard library: `str::parse::<isize>` and `::<usize>`, the set
  of strings accepted by `str::parse::<f64>`, `str::split`, `{}` of integers, slices, `Vec`.
  For C81 to C84 and C92 also that `str::parse::<f64>` rounds correctly, but for the cut of exponents
  (`core::num::dec2flt` since Rust 1.55), and that `{}` prints the shortest digits and comparisons follow IEEE 754,
  as documented; the model was compared with another implementation on 4008 numerals
  (the same bits for all, the same digits but for one exact tie, where implementations differ).

The theorems are about a 64-bit target; C94 and C104 compare it with a target of any other pointer width, on which
the functions of Model/Width.lean and Model/WidthDisplay.lean run.

Modelled: all functions of `src/lexer.rs`, `src/obj.rs` and `src/mtl.rs`, except as follows.

Not modelled:

* Sign and payload of NaNs (`F64` has one NaN), and the wrapping of the position of the decimal point in
  numerals with more than two billion digits.
* Allocation failure, stack and running time (but see C07, C59, C72, C85).
* `Debug` is modelled (Model/Debug.lean, Model/Pretty.lean for `{:#?}`) but for the table of printable characters, which is a parameter, and the flags for width, precision and hexadecimal digits. Of the hasher given to the derived `Hash` only `write_isize` appears, as a parameter.
* The commented-out `calculate_index_ranges` (obj.rs:1258-1289).
* `benches/`, `examples/`.

Simplifications, also noted at the definitions:

* Counts returned by `parse_vtn_indices` and `parse_material_library_line`, which callers
  ignore, are left out of Model/Obj.lean; they are in Model/Checked.lean.
* `try_once` is specialised to `f64`, its only use.
* The nine `parse_map_*` methods of `mtl::Parser` share one function `parse_map`.
* `String` and `&str` are lists of bytes; that unchecked conversions are sound is C02.

## Wrong programs

`seeded/LOG.jsonl` has one line for each edit of the model (and of the specification) that was tried in a scratch copy.

A failing proof shows only that the proof noticed an edit. For the theorems listed under
`statements_refuted_on_mutant` the statement itself was refuted: on the edited model, with the proofs
that no longer go through replaced by assumptions, `False` was derived from the statement at a
concrete input. The same derivations fail on the unedited model.

Without such an entry are theorems about the specification alone, existence statements, and
statements about languages or homomorphisms whose hypotheses no single input meets:
`C01_token_shape`, `C01_token_position`, `C02_encode_is_utf8`, `C15_refuted`,
`C20_fan_and_segments`, `C21_swallowed`, `C23_no_leak`, `C27_unambiguous`, `C27_objects_not_bare`,
`C28_read_valid`, `C28_normal_form`, `C29_unambiguous`, `C45_refuted`, `C52_swallowed`,
`C58_final_panic`, `C59_reached`, `C61_numbers_obj`, `C61_numbers_mtl`, `C71_normal_form`,
`C92_sharp`, `C96_mtl_accepted`, `C96_mtl_rejected`, `C96_obj`, `C97_differ`.
