{"id": "C01", "title": "Tokenisation is line/comment/word splitting", "statement": "The token sequence the parsers see is exactly: split the input at every LF or CR byte; in each line drop everything from the first `#`; split the remainder into maximal runs of bytes other than space, tab and backslash; after every terminated line emit that line's terminator byte as a token of its own. Nothing is lost, duplicated or reordered.", "quantifier": "every byte string", "why_tests_cant": "infinitely many inputs; the interplay of comments, backslashes, CR and missing final newlines is only sampled by tests", "anchors": ["src/lexer.rs: Lexer::next_token, skip_while, skip_unless, skip_comment, skip_whitespace, is_whitespace, is_newline"]}
{"id": "C02", "title": "The unchecked UTF-8 conversion is sound", "statement": "For every valid UTF-8 input, every byte slice that the lexer passes to str::from_utf8_unchecked is itself valid UTF-8 (it is the encoding of a contiguous run of the input's characters).", "quantifier": "every string of Unicode scalar values", "why_tests_cant": "undefined behaviour from a bad slice is invisible to ordinary tests and must be excluded for every multi-byte character at every position", "anchors": ["src/lexer.rs: PeekableLexer::next_token, PeekableLexer::peek, Lexer::next_token"]}
{"id": "C03", "title": "The lexer never stops early and never restarts", "statement": "next_token returns None only when what is left of the input is blanks and at most one unterminated comment, and once it has returned None it returns None forever.", "quantifier": "every byte string, every number of calls", "why_tests_cant": "quantifies over every input and over unbounded call sequences", "anchors": ["src/lexer.rs: Lexer::next_token, PeekableLexer::next_token"]}
{"id": "C04", "title": "Peeking is transparent", "statement": "Any interleaving of peek and next on the peekable lexer observes the same thing as a cursor over the token list: peek shows the token the following next returns, repeated peeks agree, and peeks never lose, duplicate or reorder tokens.", "quantifier": "every input and every finite sequence of peek/next calls", "why_tests_cant": "unbounded interleavings of operations", "anchors": ["src/lexer.rs: PeekableLexer::peek, PeekableLexer::next_token"]}
{"id": "C05", "title": "Comments are invisible", "statement": "Deleting a comment (from `#` up to but not including the end of its line) changes neither obj::parse nor mtl::parse: same result value, same error, same error line.", "quantifier": "every text before, every comment body without a newline, every text after", "why_tests_cant": "every position of every comment in every file", "anchors": ["src/lexer.rs: Lexer::skip_comment, Lexer::next_token", "src/obj.rs: parse", "src/mtl.rs: parse"]}
{"id": "C06", "title": "Amount and kind of blank space is irrelevant", "statement": "Replacing any blank (space, tab, backslash) by any other blank, or doubling a blank, anywhere in a file changes neither obj::parse nor mtl::parse.", "quantifier": "every file and every position", "why_tests_cant": "every position in every file", "anchors": ["src/lexer.rs: is_whitespace, Lexer::skip_whitespace"]}
{"id": "C07", "title": "Parsing terminates", "statement": "obj::parse and mtl::parse terminate on every input; no loop runs more often than there are bytes in the input plus one.", "quantifier": "every byte string", "why_tests_cant": "non-termination cannot be excluded by running finitely many inputs", "anchors": ["src/obj.rs: Parser::parse_objects, parse_object, parse_vtn_indices, parse_point, parse_groups, parse_material_libraries", "src/mtl.rs: Parser::parse_mtlset, parse_material"]}
{"id": "C08", "title": "mtl::parse never panics", "statement": "For every input mtl::parse returns Ok or Err; it never panics.", "quantifier": "every byte string", "why_tests_cant": "universally quantified over inputs", "anchors": ["src/mtl.rs: parse, Parser::parse_mtlset"]}
{"id": "C09", "title": "obj::parse never panics", "statement": "For every input and build profile, obj::parse returns Ok or Err; it never panics.", "quantifier": "every byte string, both overflow-check settings, both debug-assertion settings", "why_tests_cant": "universally quantified over inputs", "anchors": ["src/obj.rs: parse, Parser::parse_geometries, Parser::calculate_index, Parser::parse_shape_entries, triangulate"]}
{"id": "C10", "title": "Every stored index resolves", "statement": "In every successfully parsed object set, for every object, every element and every VTN index of the element, get_vtn_triple on the same object returns Some.", "quantifier": "every input on which obj::parse succeeds", "why_tests_cant": "a dangling index would need a specific file; must hold for all", "anchors": ["src/obj.rs: Object::get_vtn_triple, Parser::calculate_index, Parser::parse_vtn_index, Parser::parse_object"]}
{"id": "C11", "title": "Index forms are uniform within a statement", "statement": "Every element of a parsed object has VTN indices of one single form (V, VT, VN or VTN), and points always have form V; a line or face statement mixing forms is rejected.", "quantifier": "every input on which obj::parse succeeds; every line/face statement", "why_tests_cant": "all inputs", "anchors": ["src/obj.rs: verify_vtn_indices, VTNIndex::has_same_type_as, Parser::parse_line, Parser::parse_face, Parser::parse_point"]}
{"id": "C12", "title": "Shape entries are in bijection with elements", "statement": "In every parsed object shape_set has exactly as many entries as element_set and entry i describes element i.", "quantifier": "every input on which obj::parse succeeds", "why_tests_cant": "depends on every possible interleaving of g/s/usemtl and element statements", "anchors": ["src/obj.rs: Parser::parse_shape_entries, Parser::parse_object"]}
{"id": "C13", "title": "Group and smoothing-group indices are in bounds", "statement": "In every parsed object every group index of every shape entry is a valid index of group_set and every smoothing_group is a valid index of smoothing_group_set.", "quantifier": "every input on which obj::parse succeeds", "why_tests_cant": "depends on every interleaving of grouping and element statements", "anchors": ["src/obj.rs: Parser::parse_shape_entries, Parser::parse_object, ShapeEntry"]}
{"id": "C14", "title": "Geometries partition the elements", "statement": "In every parsed object the shape lists of geometry_set, concatenated in order, are exactly 0,1,...,n-1 where n is the number of elements: every element has exactly one material assignment; only the last geometry can be empty.", "quantifier": "every input on which obj::parse succeeds", "why_tests_cant": "depends on every interleaving of usemtl and element statements", "anchors": ["src/obj.rs: Parser::parse_geometries, Parser::parse_object, Geometry"]}
{"id": "C15", "title": "Group attribution", "statement": "Each element is assigned exactly the groups named on the most recent g statement before it in its object, or the single group `default` if no group has been named yet.", "quantifier": "every accepted file", "why_tests_cant": "every history of statements", "anchors": ["src/obj.rs: Parser::parse_groups, Parser::parse_object, Parser::parse_shape_entries"]}
{"id": "C16", "title": "Smoothing-group attribution", "statement": "Each element is assigned the smoothing group of the most recent s statement before it in its object (`off` meaning 0), or 0 if there is none.", "quantifier": "every accepted file", "why_tests_cant": "every history of statements", "anchors": ["src/obj.rs: Parser::parse_smoothing_group, Parser::parse_object, Parser::parse_shape_entries"]}
{"id": "C17", "title": "Material attribution", "statement": "Each element belongs to the geometry whose material name is that of the most recent usemtl statement before it in its object, or to a geometry without material if there is none.", "quantifier": "every accepted file", "why_tests_cant": "every history of statements", "anchors": ["src/obj.rs: Parser::parse_material_name, Parser::parse_geometries, Parser::parse_object"]}
{"id": "C18", "title": "Vertex data is stored faithfully and in order", "statement": "vertex_set, texture_vertex_set and normal_vertex_set of an object are exactly the values of its v, vt and vn statements, in file order; an omitted w of a v is 1, omitted v/w of a vt are 0.", "quantifier": "every accepted file", "why_tests_cant": "every file", "anchors": ["src/obj.rs: Parser::parse_vertex, parse_texture_vertex, parse_normal_vertex, try_once"]}
{"id": "C19", "title": "Indices count statements in file order", "statement": "A positive index k written in an element denotes the k-th v (vt, vn) statement of the whole file: the data that get_vtn_triple returns for the stored index is that statement's data.", "quantifier": "every accepted file, every index in it", "why_tests_cant": "offset arithmetic over every number of objects and vertices", "anchors": ["src/obj.rs: Parser::calculate_index, Parser::parse_objects, Object::get_vtn_triple"]}
{"id": "C20", "title": "Polygons become triangle fans, polylines become segments", "statement": "A face statement with n indices contributes exactly the n-2 triangles (i0, i[k+1], i[k+2]); a line statement with n indices contributes exactly the n-1 segments (i[k], i[k+1]); a point statement contributes one point per index; in order.", "quantifier": "every n and every accepted statement", "why_tests_cant": "every polygon size", "anchors": ["src/obj.rs: triangulate, Parser::parse_line, Parser::parse_point, Parser::parse_face"]}
{"id": "C21", "title": "Out-of-range indices are reported", "statement": "A point, line or face statement containing an index that is out of range for its object makes obj::parse return an error.", "quantifier": "every file with such a statement", "why_tests_cant": "every file", "anchors": ["src/obj.rs: Parser::parse_vtn_indices, Parser::calculate_index, ErrorKind::VTNIndexOutOfRange"]}
{"id": "C22", "title": "Relative indices work", "statement": "A negative index -k in an element refers to the k-th most recently defined vertex, as in the OBJ specification.", "quantifier": "every file with negative indices", "why_tests_cant": "every file", "anchors": ["src/obj.rs: Parser::calculate_index"]}
{"id": "C23", "title": "Objects are delimited by o statements", "statement": "The parsed objects are, in order, the implicit unnamed object before the first o statement (present iff something other than blank lines and mtllib lines comes before it) followed by one object per o statement, with its name; grouping state does not leak from one object into the next.", "quantifier": "every accepted file", "why_tests_cant": "every file", "anchors": ["src/obj.rs: Parser::parse_objects, Parser::parse_object_name, Parser::parse_object"]}
{"id": "C24", "title": "Material libraries are collected from the head of the file", "statement": "material_libraries lists, in order, all names on the mtllib lines at the head of the file, and an mtllib statement later in the file is rejected.", "quantifier": "every file", "why_tests_cant": "every file", "anchors": ["src/obj.rs: Parser::parse_material_libraries, Parser::parse_material_library_line"]}
{"id": "C25", "title": "Error line numbers are real line numbers", "statement": "The line number of every error of obj::parse and mtl::parse is between 1 and 1 plus the number of LF bytes of the input.", "quantifier": "every input on which parsing fails", "why_tests_cant": "every failing input", "anchors": ["src/obj.rs: Parser::next, Parser::error, ParseError", "src/mtl.rs: Parser::next, Parser::error"]}
{"id": "C26", "title": "Unsupported statements are reported on their own line", "statement": "When obj::parse fails with InvalidObjectStatement (mtl::parse with ErrorParsingMaterial or ExpectedEndOfInput) the message names a token of the input and the reported line is exactly the LF-line on which that token stands.", "quantifier": "every failing input", "why_tests_cant": "every failing input", "anchors": ["src/obj.rs: Parser::parse_object, Parser::next", "src/mtl.rs: Parser::parse_material, Parser::parse_mtlset"]}
{"id": "C27", "title": "Exact language and meaning of OBJ files", "statement": "obj::parse succeeds exactly on the files generated by the statement grammar (with in-range, uniform indices) whose objects each have an element or a usemtl, and then returns exactly the object set that the file denotes.", "quantifier": "every input, every file of the grammar", "why_tests_cant": "language equality over infinitely many files", "anchors": ["src/obj.rs: parse, Parser::parse_objset, Parser::parse_object"]}
{"id": "C28", "title": "Writing then reading an OBJ file is the identity", "statement": "For every abstract OBJ file with valid references, rendering it as text and parsing that text yields the object set it denotes.", "quantifier": "every abstract file (any number of objects, statements, vertices)", "why_tests_cant": "every file", "anchors": ["src/obj.rs: parse"]}
{"id": "C29", "title": "Exact language and meaning of MTL files", "statement": "mtl::parse succeeds exactly on the files generated by the MTL statement grammar and returns exactly the material set the file denotes.", "quantifier": "every input, every file of the grammar", "why_tests_cant": "language equality over infinitely many files", "anchors": ["src/mtl.rs: parse, Parser::parse_mtlset, Parser::parse_material"]}
{"id": "C30", "title": "Each MTL statement sets its own attribute; the last one wins", "statement": "In a parsed material every attribute has the value given by the last statement for it in that material, or the documented default if there is none; no statement affects another attribute.", "quantifier": "every accepted MTL file", "why_tests_cant": "every history of statements", "anchors": ["src/mtl.rs: Parser::parse_material, Material::new"]}
{"id": "C31", "title": "MTL statement order is irrelevant between different attributes", "statement": "Swapping two adjacent statements about different attributes of a material does not change the result of mtl::parse.", "quantifier": "every MTL file, every adjacent pair", "why_tests_cant": "every permutation", "anchors": ["src/mtl.rs: Parser::parse_material"]}
{"id": "C32", "title": "MTL files concatenate", "statement": "If two MTL texts parse, then their concatenation (with a newline between) parses to the concatenation of their materials; materials come in newmtl order.", "quantifier": "every pair of accepted MTL texts", "why_tests_cant": "every pair of files", "anchors": ["src/mtl.rs: Parser::parse_mtlset"]}
{"id": "C33", "title": "MTL rejects what it does not understand", "statement": "mtl::parse fails on a file whose material contains an unknown statement, an illumination model other than 0, 1, 2, or text before the first newmtl.", "quantifier": "every MTL file with such a statement", "why_tests_cant": "every file", "anchors": ["src/mtl.rs: Parser::parse_material, Parser::parse_illumination_model, Parser::parse_mtlset"]}
{"id": "C34", "title": "Displayed elements read back", "statement": "Parsing the Display form of an element (and of a VTN index) of an object, against the ranges of that object, yields the element back.", "quantifier": "every element with indices below 2^63-1", "why_tests_cant": "every index value", "anchors": ["src/obj.rs: impl Display for VTNIndex, impl Display for Element, Parser::parse_elements"]}
{"id": "C35", "title": "has_same_type_as is an equivalence", "statement": "has_same_type_as is reflexive, symmetric and transitive and does not look at the index values.", "quantifier": "all VTN indices", "why_tests_cant": "all values", "anchors": ["src/obj.rs: VTNIndex::has_same_type_as"]}
{"id": "C36", "title": "get_vtn_triple is exact", "statement": "get_vtn_triple returns the referenced data, in the same form as the index, iff all referenced positions exist, and None otherwise.", "quantifier": "every object and index", "why_tests_cant": "all objects", "anchors": ["src/obj.rs: Object::get_vtn_triple"]}
{"id": "C37", "title": "Integer tokens", "statement": "An index (smoothing number) token is accepted iff it is an optional sign (for smoothing numbers only +) and decimal digits whose value fits the machine type; the value is the usual decimal value; printing a number and reading it back is the identity.", "quantifier": "every token", "why_tests_cant": "all tokens", "anchors": ["src/obj.rs: Parser::parse_isize, Parser::parse_smoothing_group", "src/mtl.rs: Parser::parse_usize"]}
{"id": "C38", "title": "A final newline does not matter", "statement": "If a text parses (OBJ or MTL), then the text with an extra newline at the end parses to the same value.", "quantifier": "every accepted text", "why_tests_cant": "every file", "anchors": ["src/obj.rs: parse", "src/mtl.rs: parse"]}
{"id": "C39", "title": "Leading blank lines only shift line numbers", "statement": "Prefixing a text with n newlines leaves a successful result unchanged and adds n to the line number of an error, changing nothing else.", "quantifier": "every text, every n", "why_tests_cant": "every file", "anchors": ["src/obj.rs: Parser::parse_material_libraries, Parser::next", "src/mtl.rs: Parser::parse_mtlset"]}
{"id": "C40", "title": "Counters cannot overflow", "statement": "Line numbers, vertex counters and element counters stay at most the number of input bytes plus one, so on a 64-bit target the unchecked usize additions of both parsers cannot overflow.", "quantifier": "every input", "why_tests_cant": "every input", "anchors": ["src/lexer.rs: Lexer::advance", "src/obj.rs: Parser::next, Parser::parse_object", "src/mtl.rs: Parser::next"]}
{"id": "C41", "title": "Names are clean words", "statement": "Group names, library names, object names and material names in a parse result are non-empty and contain no blank, no newline and no `#`.", "quantifier": "every accepted file", "why_tests_cant": "every file", "anchors": ["src/obj.rs: Parser::parse_groups, parse_material_name, parse_object_name, parse_material_library_line", "src/mtl.rs: Parser::parse_newmtl"]}
{"id": "C42", "title": "Smoothing groups display and read back", "statement": "Displaying a smoothing group and reading it with an s statement gives it back; 0 displays as off.", "quantifier": "every smoothing group number below 2^64", "why_tests_cant": "all values", "anchors": ["src/obj.rs: impl Display for SmoothingGroup, Parser::parse_smoothing_group"]}
{"id": "C43", "title": "A finished parser stays finished", "statement": "After parse_objset (parse_mtlset) has returned Ok, calling it again on the same parser returns Ok with an empty result, any number of times.", "quantifier": "every accepted input, every number of further calls", "why_tests_cant": "unbounded call sequences", "anchors": ["src/obj.rs: Parser::parse_objset", "src/mtl.rs: Parser::parse_mtlset"]}
{"id": "C44", "title": "CRLF files parse like LF files", "statement": "Replacing every LF by CRLF changes nothing in the result.", "quantifier": "every file", "why_tests_cant": "every file", "anchors": ["src/lexer.rs: is_newline", "src/obj.rs: Parser::skip_zero_or_more_newlines"]}
{"id": "C45", "title": "Every element belongs to a group", "statement": "In every parsed object every shape entry has at least one group.", "quantifier": "every accepted file", "why_tests_cant": "every history of g statements", "anchors": ["src/obj.rs: Parser::parse_groups, Parser::parse_shape_entries"]}
{"id": "C46", "title": "OBJ files concatenate at object boundaries", "statement": "Appending a further object (an o statement with body) to an accepted file leaves all objects already parsed unchanged and adds exactly one object.", "quantifier": "every accepted file, every appended object", "why_tests_cant": "every pair of files", "anchors": ["src/obj.rs: Parser::parse_objects"]}
{"id": "C47", "title": "Unknown OBJ statements are rejected", "statement": "A line of an OBJ file whose first word is none of v, vt, vn, g, s, usemtl, p, l, f, o, mtllib makes obj::parse fail, wherever in the file the line stands; on the first line the error is InvalidObjectStatement on line 1 naming the word.", "quantifier": "every file and every position of the line", "why_tests_cant": "the claim ranges over unboundedly many inputs; tests can only sample them", "anchors": ["src/obj.rs: Parser::parse_object"]}
{"id": "C48", "title": "Displaying a parse result never panics", "statement": "For every successfully parsed object set, Display of the object set, of each object, of each element and of each index returns without panicking, in every build profile (in particular the `v + 1` of VTNIndex::fmt cannot overflow).", "quantifier": "every input, every build profile", "why_tests_cant": "the claim ranges over unboundedly many inputs; tests can only sample them", "anchors": ["src/obj.rs: impl Display for VTNIndex, Element, Object, ObjectSet; DisplayObjectCompositor"]}
{"id": "C49", "title": "The text of an error identifies it", "statement": "The Display text of a ParseError determines its line number and its message: two errors with the same text have the same line number and message.", "quantifier": "every pair of errors", "why_tests_cant": "the claim ranges over unboundedly many inputs; tests can only sample them", "anchors": ["src/obj.rs: impl Display for ParseError", "src/mtl.rs: impl Display for ParseError"]}
{"id": "C50", "title": "Exact panic criterion of obj::parse", "statement": "obj::parse panics exactly when, all statements before being well formed, an object ends that has neither an element nor a usemtl statement, or (only in builds with overflow checks) an index is so negative that subtracting it overflows. No other panic site (slice index, debug_assert, empty first) is reachable.", "quantifier": "every input, every build profile", "why_tests_cant": "the claim ranges over unboundedly many inputs; tests can only sample them", "anchors": ["src/obj.rs: Parser::parse_geometries, Parser::calculate_index"]}
{"id": "C51", "title": "Exact group attribution", "statement": "Each element is assigned the groups in force at its statement: the names of the most recent g statement before it in its object. If there is no g statement before it, or that statement has no names and neither an element nor a g with names came before it, this is the group default. If that statement has no names but an element or a g with names came before it, the element has no group.", "quantifier": "every accepted input, every element", "why_tests_cant": "the claim ranges over unboundedly many inputs; tests can only sample them", "anchors": ["src/obj.rs: Parser::parse_object, Parser::parse_shape_entries"]}
{"id": "C52", "title": "Which out-of-range indices are reported", "statement": "An out-of-range index anywhere in a p statement, among the first two of an l statement or the first three of an f statement is never accepted; a later faulty token of an l or f statement is silently swallowed and the statement keeps the indices before it; leaving such a token out at the end of its line does not change the outcome of the parse.", "quantifier": "every input, every position of the statement", "why_tests_cant": "the claim ranges over unboundedly many inputs; tests can only sample them", "anchors": ["src/obj.rs: Parser::parse_point, Parser::parse_line, Parser::parse_face, Parser::parse_vtn_indices"]}
{"id": "C53", "title": "Non-positive indices are never accepted", "statement": "A zero or negative vertex index anywhere in a p statement, among the first two references of an l statement or the first three of an f statement keeps the text from being accepted (obj::parse returns an error, or panics in overflow-checked builds): relative references are not supported.", "quantifier": "every input, every position of the statement", "why_tests_cant": "the claim ranges over unboundedly many inputs; tests can only sample them", "anchors": ["src/obj.rs: Parser::calculate_index"]}
{"id": "C54", "title": "What names can be", "statement": "Library and group names of a parse result are clean words or a lone CR; material and object names may in addition be a lone LF, and only when usemtl (or o and an empty line) is directly followed by the end of its line; only an object without o statement has the empty name.", "quantifier": "every accepted input", "why_tests_cant": "the claim ranges over unboundedly many inputs; tests can only sample them", "anchors": ["src/obj.rs: Parser::parse_material_name, Parser::parse_object_name, Parser::parse_groups, Parser::parse_material_library_line"]}
{"id": "C55", "title": "A carriage return is a statement of its own", "statement": "A CR that follows a complete statement (other than g, p, l, f, which read to the end of the line) is rejected as an invalid statement, so CRLF files are in general not accepted.", "quantifier": "every input, every position", "why_tests_cant": "the claim ranges over unboundedly many inputs; tests can only sample them", "anchors": ["src/lexer.rs: is_newline", "src/obj.rs: Parser::parse_object"]}
{"id": "C56", "title": "Every element has a group if all g statements have names", "statement": "In a parsed object none of whose g statements is without names, every shape entry has at least one group.", "quantifier": "every accepted input", "why_tests_cant": "the claim ranges over unboundedly many inputs; tests can only sample them", "anchors": ["src/obj.rs: Parser::parse_object, Parser::parse_groups"]}
{"id": "C57", "title": "The build profile only matters for one overflow", "statement": "Two builds of the OBJ parser give the same result on every input, except that a build with overflow checks panics in calculate_index where one without them takes the index for one out of range; debug assertions make no difference.", "quantifier": "every input, every pair of build profiles", "why_tests_cant": "the claim ranges over unboundedly many inputs; tests can only sample them", "anchors": ["src/obj.rs: Parser::calculate_index"]}
{"id": "C58", "title": "A fault in complete lines is final", "statement": "If a text that ends with a newline is rejected, every continuation of it is rejected with the same error, line and message; the one exception is an OBJ text ending in an o line without a name. The overflow panic is final in the same way.", "quantifier": "every rejected text ending in LF, every continuation", "why_tests_cant": "the claim ranges over unboundedly many inputs; tests can only sample them", "anchors": ["src/obj.rs: Parser::parse_objset", "src/mtl.rs: Parser::parse_mtlset"]}
{"id": "C59", "title": "The tables are no larger than the text", "statement": "All tables of all parsed objects together (vertices, texture vertices, normals, groups, smoothing groups, elements, geometries, material libraries; defaults included) have at most as many entries as the text has tokens. The group lists in the shape table have at most quadratically many entries in total, and this order is reached. There are at most half as many materials as tokens.", "quantifier": "every accepted input", "why_tests_cant": "the claim ranges over unboundedly many inputs; tests can only sample them", "anchors": ["src/obj.rs: Parser::parse_object, Parser::parse_groups", "src/mtl.rs: Parser::parse_material"]}
{"id": "C60", "title": "Empty lines change nothing", "statement": "An empty line can be inserted anywhere after a line end of an accepted OBJ or MTL text without changing the result; in MTL texts it can also be removed.", "quantifier": "every accepted input, every line end in it", "why_tests_cant": "the claim ranges over unboundedly many inputs; tests can only sample them", "anchors": ["src/obj.rs: Parser::skip_one_or_more_newlines", "src/mtl.rs: Parser::skip_zero_or_more_newlines"]}
{"id": "C61", "title": "The parser does not compute with numbers", "statement": "Parsing with another type of floating point numbers gives the same outcome with the numbers replaced: values reach the result unchanged, and errors, indices and names never depend on them.", "quantifier": "every input, every two number types with a map between them that respects numerals", "why_tests_cant": "the claim ranges over unboundedly many inputs; tests can only sample them", "anchors": ["src/obj.rs: Parser::parse_f64", "src/mtl.rs: Parser::parse_f64"]}
{"id": "C62", "title": "An error is caused by the lines up to the reported one", "statement": "If an error is reported on line n, the lines up to n alone give the same error, the text after line n can be replaced by anything, and the first n - 2 lines alone are not rejected (OBJ: unless they end in an o without a name).", "quantifier": "every rejected input, every replacement of the text after the line", "why_tests_cant": "the claim ranges over unboundedly many inputs; tests can only sample them", "anchors": ["src/obj.rs: Parser::advance, Parser::error", "src/mtl.rs: Parser::advance, Parser::error"]}
{"id": "C63", "title": "Texts can be cut between objects and between materials", "statement": "Cutting an accepted OBJ text before a line starting with o leaves an accepted text with the objects up to there, unchanged. Cutting an accepted MTL text before a line starting with newmtl gives two accepted texts, whose materials together are those of the whole.", "quantifier": "every accepted input, every such line", "why_tests_cant": "the claim ranges over unboundedly many inputs; tests can only sample them", "anchors": ["src/obj.rs: Parser::parse_objects", "src/mtl.rs: Parser::parse_mtlset"]}
{"id": "C64", "title": "The documented OBJ grammar is accepted", "statement": "A text of one statement per line in the grammar of GRAMMAR.md (v, vt, vn, p, l, f, g, s, o, with comments and blank lines, and also usemtl and mtllib), without vp, whose indices are positive and count what the object has defined so far, and in which every object has an element or a material, is accepted, and the result is what the grammar's file denotes.", "quantifier": "every such text", "why_tests_cant": "the claim ranges over unboundedly many inputs; tests can only sample them", "anchors": ["GRAMMAR.md", "src/obj.rs: parse"]}
{"id": "C65", "title": "The documented MTL grammar is accepted", "statement": "A text of one statement per line in the grammar of GRAMMAR.md, without Tf and with illumination models 0, 1 and 2, is accepted, and the result is what the grammar's file denotes.", "quantifier": "every such text", "why_tests_cant": "the claim ranges over unboundedly many inputs; tests can only sample them", "anchors": ["GRAMMAR.md", "src/mtl.rs: parse"]}
{"id": "C66", "title": "Free-form geometry is rejected", "statement": "An OBJ text with a line that starts with a keyword of free-form curves or surfaces is never accepted, wherever the line is.", "quantifier": "every text with such a line", "why_tests_cant": "the claim ranges over unboundedly many inputs; tests can only sample them", "anchors": ["README.md", "src/obj.rs: Parser::parse_object"]}
{"id": "C67", "title": "The lexer's line counter", "statement": "After any number of calls of next_token, current_line_number is one more than the number of LF and CR bytes in the part of the text consumed, and after the last token one more than their number in the whole text.", "quantifier": "every input, every number of calls", "why_tests_cant": "the claim ranges over unboundedly many inputs; tests can only sample them", "anchors": ["src/lexer.rs: Lexer::advance"]}
{"id": "C68", "title": "Which words are numbers", "statement": "A word is taken as a number, in OBJ and MTL texts alike, exactly if it is an optional sign followed by inf, infinity or nan in any letter case, or by digits with an optional point (at least one digit on either side of it) and an optional exponent; in particular every integer word is a number.", "quantifier": "every word", "why_tests_cant": "the claim ranges over unboundedly many inputs; tests can only sample them", "anchors": ["src/obj.rs: Parser::parse_f64", "src/mtl.rs: Parser::parse_f64"]}
{"id": "C69", "title": "Error messages", "statement": "The kind and the message of every parse error belong together: the message is one of the texts of that kind, a word or number quoted in it occurs in the text and is faulty in the way stated, and an index shown is outside the range shown. Errors of every kind occur, except ElementMustBeAPointLineOrFace for OBJ and ExpectedTagStatement for MTL, which never do.", "quantifier": "every rejected text", "why_tests_cant": "the claim ranges over unboundedly many inputs; tests can only sample them", "anchors": ["src/obj.rs: ErrorKind, Parser::error", "src/mtl.rs: ErrorKind, Parser::error"]}
{"id": "C70", "title": "Order of lines", "statement": "In an accepted OBJ text two adjacent lines, each holding one statement that is not an element and starting with different words, can be swapped without changing the result.", "quantifier": "every text, every pair of such lines", "why_tests_cant": "the claim ranges over unboundedly many inputs; tests can only sample them", "anchors": ["src/obj.rs: Parser::parse_object"]}
{"id": "C71", "title": "Writing MTL files", "statement": "Any material set whose names are words can be written as an MTL text, one attribute per line, and parsing that text gives the set back; so what any accepted text is parsed to can be written and read again.", "quantifier": "every material set, every accepted text", "why_tests_cant": "the claim ranges over unboundedly many inputs; tests can only sample them", "anchors": ["src/mtl.rs: Parser::parse_material", "src/mtl.rs: Material"]}
{"id": "C72", "title": "Linearly many calls of the lexer", "statement": "However it ends, a run of either parser calls peek and next of the lexer at most eight times for each token of the text and twelve times more, so no text makes the parser re-read its tokens over and over.", "quantifier": "every text", "why_tests_cant": "the claim ranges over unboundedly many inputs; tests can only sample them", "anchors": ["src/obj.rs: Parser", "src/mtl.rs: Parser", "src/lexer.rs: PeekableLexer"]}
{"id": "C73", "title": "Derived comparisons", "statement": "Two parse results are equal (==) exactly if they differ at most in their floating point numbers and these are pairwise equal; so the result of parsing an OBJ text is equal to itself exactly if no coordinate in the text is a NaN, and the result of parsing an MTL text exactly if no number that decides the value of an attribute is a NaN. Colors compare by red, then green, then blue, illumination models by the numbers that select them.", "quantifier": "every pair of results, every accepted text", "why_tests_cant": "the claim ranges over unboundedly many inputs; tests can only sample them", "anchors": ["src/obj.rs: derive(PartialEq) of Vertex, TextureVertex, NormalVertex, Object, ObjectSet", "src/mtl.rs: derive(PartialEq, PartialOrd) of Color, Material, MaterialSet, IlluminationModel"]}
{"id": "C74", "title": "Contracts of the parser methods", "statement": "Whatever state the parser is in, each of its methods takes tokens from the front of the remaining text, adds the number of newlines among them to the line counter, and puts the counter as it then stands into its errors. A method for a statement fails with a message naming both words when the next token is not its word, taking just that token; the methods for optional parts take nothing and succeed when the next token is not theirs. An index v is accepted exactly if min < v <= max and denotes the entry v - 1 - min.", "quantifier": "every parser state, every remaining text, every method", "why_tests_cant": "the claim ranges over unboundedly many inputs; tests can only sample them", "anchors": ["src/obj.rs: every method of Parser", "src/mtl.rs: every method of Parser"]}
{"id": "C75", "title": "Objects do not depend on their neighbours", "statement": "A parsed object depends on nothing but its own statements: objects of two accepted texts whose statements are the same once references are counted from the start of the object are equal, whatever stands in front of them or after them. Every object of an accepted text can be taken out: its statements with references counted from its start are a text of their own that parses to just this object. Two accepted texts, the second without an unnamed object, can be joined by raising the references of the second by what the first defines: the result has the libraries and the objects of both, in order.", "quantifier": "every pair of accepted texts, every object", "why_tests_cant": "the claim ranges over unboundedly many inputs; tests can only sample them", "anchors": ["src/obj.rs: parse_objects, parse_object", "src/obj.rs: calculate_index, parse_vtn_index"]}
{"id": "C76", "title": "Splitting statements", "statement": "An accepted face of at least four vertices can be written as two faces that share its first vertex and one other, an accepted line of at least three vertices as two lines that share a vertex, points as two statements, and a usemtl statement can be put in front of another usemtl statement, each on a line of its own in place of the one line: the parse gives the same result, panics likewise, or reports the same error one line further down.", "quantifier": "every text around the line, every way of splitting it", "why_tests_cant": "the claim ranges over unboundedly many inputs; tests can only sample them", "anchors": ["src/obj.rs: parse_face, parse_line, parse_point, parse_elements", "src/obj.rs: parse_objects, parse_object"]}
{"id": "C77", "title": "Spelling of integers", "statement": "Zeros and a plus sign in front of the digits of an accepted index or smoothing group number make no difference to the outcome of the parse, and s off is another spelling of s 0.", "quantifier": "every text around the line, every spelling", "why_tests_cant": "the claim ranges over unboundedly many inputs; tests can only sample them", "anchors": ["src/obj.rs: parse_vtn_index, calculate_index, parse_isize, parse_smoothing_group"]}
{"id": "C78", "title": "What the display shows", "statement": "Two parse results are displayed alike if and only if they have the same number of objects and corresponding objects have the same name and, in each of the vertex, texture vertex, normal, group, smoothing group and element tables, the same length, first entry and last entry; material libraries, geometries and everything between the first and the last entry are not shown. The same holds of two parsed objects.", "quantifier": "every two accepted texts, all builds", "why_tests_cant": "the claim ranges over unboundedly many inputs; tests can only sample them", "anchors": ["src/obj.rs: compose_set, compose, Display for Object, Display for ObjectSet", "src/obj.rs: Display for Vertex, TextureVertex, NormalVertex, VTNIndex, Element, Group, SmoothingGroup"]}
{"id": "C79", "title": "Exchanging statements of a material", "statement": "Inside a material, complete lines of MTL statements can be exchanged for any others that give every attribute the same last value: the materials stay the same, and so does an error, whose line moves with the text behind the exchanged lines. So a statement can be left out if a later line of the material sets the same attribute, and an illumination model can be written with zeros and a plus sign in front, a bump map with either keyword, and a number as any other numeral of the same value.", "quantifier": "every text around the lines, all lines exchanged", "why_tests_cant": "the claim ranges over unboundedly many inputs; tests can only sample them", "anchors": ["src/mtl.rs: parse_material, parse_mtlset", "src/mtl.rs: parse_illumination_model, parse_map_bump, parse_usize"]}
{"id": "C80", "title": "Names are just names", "statement": "Giving libraries, objects, groups and materials of an OBJ file, or materials and texture maps of an MTL file, new names changes the parse result in these names and nowhere else, whatever the new names are (keywords, or the same name for several things); an error or a panic stays exactly the same. The names the parser makes up itself are kept: `default` for a group and the empty name for an object. In OBJ files none of the keywords g, usemtl, mtllib, o may follow l or f on a line, because a line or face statement swallows the word after it.", "quantifier": "all texts, all renamings that keep line ends", "why_tests_cant": "the claim ranges over unboundedly many inputs; tests can only sample them", "anchors": ["src/obj.rs: parse_groups, parse_material_name, parse_object_name, parse_material_library_line", "src/mtl.rs: parse_newmtl, parse_map_diffuse"]}
{"id": "C81", "title": "Numbers are correctly rounded", "statement": "With the numbers of IEEE binary64 for f64: every coordinate and every number of a material that the parsers store is the number its numeral denotes, if the numeral has at most 65220 bytes or an exponent below 655360 in size (see C92), rounded to the nearest f64 with ties to even, infinite from 2^1024 - 2^970 on, with the sign of the numeral (also for zero); inf, infinity and nan in any case give infinity and NaN; an omitted w and an unset dissolve factor are 1, other omitted coordinates, unset colors and an unset specular exponent are 0. So representable numbers and all integers up to 2^53 are read exactly however they are written, and reading keeps the order of numbers.", "quantifier": "all OBJ and MTL texts, all accepted numerals within the bounds named", "why_tests_cant": "the claim ranges over unboundedly many inputs; tests can only sample them", "anchors": ["src/obj.rs: parse_f64, parse_vertex, parse_texture_vertex, parse_normal_vertex", "src/mtl.rs: parse_f64, parse_color, parse_dissolve_component, parse_specular_exponent, parse_optical_density"]}
{"id": "C82", "title": "Spelling of coordinates", "statement": "A v, vt or vn line can be exchanged for any other that gives the same coordinates: numbers can be written as any other numeral of the same value, and an omitted coordinate can be written out or left out. The result, or the error and its line, stays exactly the same. Numerals that denote the same number with the same sign have the same f64 value, within the bounds of C81.", "quantifier": "every text around the line, all spellings", "why_tests_cant": "the claim ranges over unboundedly many inputs; tests can only sample them", "anchors": ["src/obj.rs: parse_vertex, parse_texture_vertex, parse_normal_vertex, try_once"]}
{"id": "C83", "title": "Printing numbers loses nothing", "statement": "With binary64 for f64: what Display prints for a number is accepted by the parser and read as the same number, with the sign of zero, infinity and NaN; different numbers are printed differently. A finite number is printed without exponent part as d * 10^e for the largest e such that a multiple of 10^e is read as the number, and as the nearest of these multiples. So the displayed data of a parsed object, read again, give the same vertices, texture vertices, normals and elements.", "quantifier": "all f64 values, all parsed objects with an element", "why_tests_cant": "the claim ranges over unboundedly many inputs; tests can only sample them", "anchors": ["src/obj.rs: impl Display for Vertex, TextureVertex, NormalVertex", "src/obj.rs: parse_f64"]}
{"id": "C84", "title": "Numbers are compared as numbers", "statement": "With binary64 for f64: == and partial_cmp of numbers are equality and order of the numbers they stand for, with the infinities at the ends, the two zeros equal and NaN not comparable. So two parse results are equal (==) exactly if they differ at most in their numbers and these are pairwise equal as numbers; this is symmetric and transitive. Colors are ordered by red, then green, then blue; the order is transitive and no color is less than itself.", "quantifier": "all f64 values, all pairs of results, all colors", "why_tests_cant": "the claim ranges over unboundedly many inputs; tests can only sample them", "anchors": ["src/obj.rs: derive(PartialEq) of Vertex, TextureVertex, NormalVertex, Object, ObjectSet", "src/mtl.rs: derive(PartialEq, PartialOrd) of Color, Material, MaterialSet"]}
{"id": "C85", "title": "Each byte is looked at a bounded number of times", "statement": "Whatever the text, and however the parse ends, obj::parse and mtl::parse look at bytes of the text (Lexer::peek, the only way the lexer reads a byte) at most twice per byte and 32 times per token and 48 times more: at most 34 times the length of the text plus 48.", "quantifier": "all texts, all outcomes", "why_tests_cant": "the claim ranges over unboundedly many inputs; tests can only sample them", "anchors": ["src/lexer.rs: Lexer::peek, Lexer::advance, Lexer::skip_while, Lexer::next_token, PeekableLexer", "src/obj.rs: Parser::parse_objset", "src/mtl.rs: Parser::parse_mtlset"]}
{"id": "C86", "title": "Display of indices, elements and objects in general", "statement": "For every index, element and object whose numbers are usize values, whether it comes from the parser or not: Display writes every number plus one (modulo 2^64 in a build without overflow checks), in the form v, v/vt, v//vn or v/vt/vn, an element being p, l or f and its indices. It panics exactly in a build with overflow checks and when one of the numbers shown is usize::MAX; of an object only the first and the last element are shown. Different indices, and different elements, are displayed differently in every build.", "quantifier": "all indices, elements, objects and builds", "why_tests_cant": "the claim ranges over unboundedly many inputs; tests can only sample them", "anchors": ["src/obj.rs: impl Display for VTNIndex, Element, Object, ObjectSet, DisplayObjectCompositor"]}
{"id": "C87", "title": "Calling a parser again continues with the rest of the text", "statement": "Whatever calls of parse_objset (parse_mtlset) a parser has behind it, and however they ended, there is a point of the text such that the line counter stands at the line of this point, and the next call returns exactly what a new parser returns on the text behind it, with the lines of errors counted from the start of the whole text. A word that begins no statement is not taken: once parse_objset has complained about it, every further call makes the same complaint about the same line, unless the word is mtllib; once parse_mtlset has complained about such a word, every further call complains about it, on the same line, as a word where the file should end.", "quantifier": "all texts, all sequences of calls, all outcomes", "why_tests_cant": "the claim ranges over unboundedly many inputs; tests can only sample them", "anchors": ["src/obj.rs: Parser::parse_objset, Parser::parse_object", "src/mtl.rs: Parser::parse_mtlset, Parser::parse_material"]}
{"id": "C88", "title": "What an object shows", "statement": "Going through the shape entries of a parsed object and looking up the element, the vertices, texture vertices and normals of its indices, the names of its groups, its smoothing group and the material of its geometry gives exactly what the statements of the object say one after the other: the numbers count the v, vt and vn statements of the file, the attributes are those in force at the statement, and no lookup fails. Therefore the numbering does not matter: two objects whose statements apart from v, vt and vn agree up to new numbers that count equal data show the same; and a vertex, texture vertex or normal can be inserted anywhere in an accepted file if the references behind it are raised by one, without changing what any object shows.", "quantifier": "all accepted texts, all objects in them, all renumberings, all places of insertion, all build profiles", "why_tests_cant": "the claim ranges over unboundedly many inputs; tests can only sample them", "anchors": ["src/obj.rs:1212-1290", "src/obj.rs:494-521", "src/obj.rs:881-902"]}
{"id": "C89", "title": "Which object sets can be results", "statement": "An object set is the result of reading some OBJ text exactly when its tables are well formed: the indices of each element point into the tables of its object and have one form (points only a vertex), there is one shape entry per element in order, the groups of successive entries are either those of the entry before or a consecutive run of later groups, smoothing groups come in table order, the geometries cut the element list into consecutive pieces of which only the last can be empty and only the first can be without a material, there is an element or a material, names are tokens and only the first object can be without a name. In particular a simple writer, which knows only the returned object set, produces a text that reads back as exactly the same object set.", "quantifier": "all OBJ texts, all object sets whose written text has fewer than 2^63 bytes, all lawful number types (f64 among them)", "why_tests_cant": "the claim ranges over unboundedly many inputs; tests can only sample them", "anchors": ["src/obj.rs: Parser::parse_objset, Parser::parse_object, struct Object, struct ShapeEntry, struct Geometry"]}
{"id": "C90", "title": "Reading more lines only adds to the result", "statement": "Let a text end with a complete line and let more lines follow it. If both the first lines and the whole are accepted as OBJ, every object read from the first lines except the last is unchanged in the result for the whole; the last has the same name, and its vertices, texture vertices, normals, groups, smoothing groups, elements and shape entries are at the same positions, followed by whatever the other lines added; its geometries are kept too, except that the last can get more elements, or be dropped while it has none. The libraries are kept likewise. The first lines of an accepted OBJ text are accepted too, except that an object without element and material so far makes the program panic and that an o at the end of a line waits for its name. The first lines of an accepted MTL text are always accepted; the materials before the last are unchanged and the last keeps its name and every optional attribute it has got.", "quantifier": "all texts, all places after a line end, both build profiles", "why_tests_cant": "the claim ranges over unboundedly many inputs; tests can only sample them", "anchors": ["src/obj.rs: Parser::parse_object", "src/obj.rs: Parser::parse_objects", "src/obj.rs: Parser::parse_material_libraries", "src/mtl.rs: Parser::parse_mtlset"]}
{"id": "C91", "title": "What each method of the lexer does", "statement": "From any cursor position: peek returns the byte at the cursor, if any; advance moves over one byte; skip_while and skip_unless move over the longest run of bytes that satisfy, or do not satisfy, the predicate and return its length; skip_whitespace moves over spaces, tabs and backslashes; skip_comment moves to the end of the line if the cursor is at a #, and does not move otherwise; next_token moves over blanks, at most one comment and one token, which is a single line end byte or a word that goes on up to the next separator, and it returns None only at the end of the text. Every method that moves adds to the line counter the number of line end bytes moved over. PeekableLexer::peek returns what next_token would return, any number of times, and next_token after it gives the token and the state it would have given without it.", "quantifier": "all texts, all cursor positions and line counters, all predicates", "why_tests_cant": "the claim ranges over unboundedly many inputs; tests can only sample them", "anchors": ["src/lexer.rs: Lexer::peek", "src/lexer.rs: Lexer::advance", "src/lexer.rs: Lexer::skip_while", "src/lexer.rs: Lexer::skip_unless", "src/lexer.rs: Lexer::skip_whitespace", "src/lexer.rs: Lexer::skip_comment", "src/lexer.rs: Lexer::next_token", "src/lexer.rs: PeekableLexer::next_token", "src/lexer.rs: PeekableLexer::peek"]}
{"id": "C92", "title": "What long numerals are read as", "statement": "With binary64 for f64: str::parse::<f64> adds no more digits to an exponent once it exceeds 65535. So every accepted numeral, of any length, is read as one number: its mantissa times ten to the exponent cut in this way, rounded. This is the number it denotes, rounded, if the numeral has at most 65220 bytes or an exponent below 655360 in size, in particular if it has no exponent. The bound of 65220 bytes is sharp: 65213 nines followed by e-655360 denote a number that is rounded to 0 and are read as 2^-1073.", "quantifier": "all accepted numerals of any length", "why_tests_cant": "the claim ranges over unboundedly many inputs; tests can only sample them", "anchors": ["src/obj.rs: parse_f64", "src/mtl.rs: parse_f64"]}
{"id": "C93", "title": "Nothing is read that the text does not name", "statement": "In the result of an accepted OBJ text there are at most as many vertices as words v in the text, texture vertices as words vt, normals as words vn, geometries with a material as words usemtl, and named objects as words o. Each object has at most one smoothing group and one geometry more than that, and there is at most one object more. Without any word p, l and f there is no element; without any word g there is no group but the default one; without any word mtllib there is no library. An accepted MTL text has at most as many materials as words newmtl, and an attribute none of whose words occurs has its default in all of them. Lines added behind complete lines leave every attribute whose words they do not contain unchanged in the earlier materials.", "quantifier": "every accepted OBJ or MTL text", "why_tests_cant": "the claim ranges over unboundedly many inputs; tests can only sample them", "anchors": ["src/obj.rs: Parser::parse_objects, parse_object, parse_statement loop", "src/mtl.rs: Parser::parse_material"]}
{"id": "C94", "title": "The parsers do the same on a target of any pointer width", "statement": "On a target with pointers of w <= 64 bits, obj::parse of a text with fewer than 2^(w-1)-1 bytes, in which no number between slashes, plus the length of the text, reaches 2^(w-1) in absolute value and no unsigned number reaches 2^w, has the same outcome (result, error or panic) as on a 64-bit target, and no counter of the parser or of the lexer overflows w bits. Large indices never change whether a text is accepted nor its result: for this it is enough that every unsigned number fits in w bits and, in builds with overflow checks, that no index is close to or below isize::MIN. mtl::parse accepts the same texts with the same results on every target, and has the same errors if every unsigned number fits. Each condition is needed.", "quantifier": "all byte strings, all build profiles, all pointer widths up to 64 bits", "why_tests_cant": "the claim ranges over unboundedly many inputs; tests can only sample them", "anchors": ["src/obj.rs:778-788", "src/obj.rs:880-901", "src/obj.rs:903-962", "src/obj.rs:1160-1189", "src/mtl.rs:365-375", "src/mtl.rs:585-598"]}
{"id": "C95", "title": "Triangulation keeps the surface", "statement": "In every object of an accepted OBJ text the edges of the triangles are the sides of the polygons of its f statements, with their direction and as often as they occur there, together with the diagonals from the first corner of each polygon, once in each direction, compared as whole references. Therefore the boundary of the triangles, counted with direction, is that of the polygons; the triangles make up a closed surface exactly if the polygons do; and in the plane of any two coordinates, with values in any commutative ring, the signed areas of the triangles add up to those of the polygons. The segments are the steps of the polylines of the l statements, in order, and at every vertex as many more segments end than start as polylines do.", "quantifier": "every accepted OBJ text, every object of it, every pair of coordinates in every commutative ring", "why_tests_cant": "the claim ranges over unboundedly many inputs; tests can only sample them", "anchors": ["src/obj.rs:1022-1066", "src/obj.rs:1068-1112"]}
{"id": "C96", "title": "MTL texts can be judged with finite memory, OBJ texts cannot", "statement": "The MTL texts that mtl::parse accepts are a regular language, and so are, for every kind of error, those it rejects with an error of this kind: a finite automaton that reads the bytes once gives the same verdict. For obj::parse there is no such small automaton: any deterministic automaton that accepts the same texts shorter than 2^63 bytes has more than 10^18 states.", "quantifier": "all byte strings, all kinds of MTL errors; all automata", "why_tests_cant": "the claim ranges over unboundedly many inputs; tests can only sample them", "anchors": ["src/lexer.rs:30-142", "src/mtl.rs:585-598", "src/mtl.rs: Parser::parse_material, parse", "src/obj.rs:880-901"]}
{"id": "C97", "title": "What later lines see of earlier lines", "statement": "Let two texts of complete lines be accepted as OBJ. If they agree in how many vertices, texture vertices and normals the last object has and how many the objects before it have (or neither has an object yet), then any further lines are taken in the same way after both: both whole texts are accepted and the same libraries, objects, and vertices, texture vertices, normals and elements of the last object are added, or both are rejected with the same kind and message on the same line counted from the end of the first lines, or both panic at the same place. If they differ in one of these six numbers, or only one has an object, there are lines of at most 210 bytes that are accepted after one of the texts and not after the other.", "quantifier": "all pairs of accepted texts of complete lines, all continuations, all build profiles", "why_tests_cant": "the claim ranges over unboundedly many inputs; tests can only sample them", "anchors": ["src/obj.rs:880-901", "src/obj.rs:905-1010", "src/obj.rs: Parser::parse_object, parse_objset"]}
{"id": "C98", "title": "What later lines of a material library see of earlier lines", "statement": "What a line of a material library is taken for depends on the lines before it only through whether a material has begun. If two texts of complete lines are accepted and both have a material or both have none, then any lines that follow are taken in the same way after both: the last material changes in the same attributes to the same values and the same materials are added, or both are rejected with the same kind and message on the same line, counted from the end of the first lines. Whether there is a material matters: the line d 0 is accepted exactly if there is one.", "quantifier": "all pairs of accepted texts of complete lines, all continuations", "why_tests_cant": "the claim ranges over unboundedly many inputs; tests can only sample them", "anchors": ["src/mtl.rs:628-711", "src/mtl.rs:774-792"]}
{"id": "C99", "title": "Defaults", "statement": "In the default object no index is found and only itself is equal to it; no object of a result is equal to it. If no g precedes the first element of an object, that element belongs to the default group alone, and if no s precedes it, to the default smoothing group. A material without statements is Material::new() with its name.", "quantifier": "all objects, all accepted OBJ texts, all names", "why_tests_cant": "the claim ranges over unboundedly many inputs; tests can only sample them", "anchors": ["src/obj.rs:314-318", "src/obj.rs:323-324", "src/obj.rs:387-408", "src/obj.rs:1405-1419", "src/mtl.rs:184-207"]}
{"id": "C100", "title": "Triangles of a convex polygon", "statement": "Let the corners of an f statement of an accepted OBJ text be mapped to a plane over any ordered commutative ring (for example by leaving out a coordinate) so that any three of them, in their order, turn left. Then every triangle the statement is cut into turns left, a point is to the left of or on all sides of the polygon exactly if it is in one of the triangles or on its sides, and no point is strictly inside two of the triangles.", "quantifier": "all accepted OBJ texts, all their f statements with any number of corners, all maps of vertices to a plane over an ordered commutative ring under which the polygon is strictly convex, all points of the plane", "why_tests_cant": "the claim ranges over unboundedly many inputs; tests can only sample them", "anchors": ["src/obj.rs:671-696", "src/obj.rs:1073-1113", "src/obj.rs:401-488"]}
{"id": "C101", "title": "Winding numbers of polygons", "statement": "Whatever is summed along directed edges and changes its sign with the direction has the same sum around a polygon of an f statement as around the triangles it is cut into. So, whether the polygon is convex or not, and however its corners are mapped to a plane over an ordered commutative ring, its winding number about a point is the number of its triangles that surround the point counterclockwise minus the number of those that surround it clockwise, for every point that is on no line through two corners of a triangle.", "quantifier": "all accepted OBJ texts, all their f statements with any number of corners, all antisymmetric functions of two vertices with values in an abelian group, all maps of vertices to a plane over an ordered commutative ring, all points of the plane in general position", "why_tests_cant": "the claim ranges over unboundedly many inputs; tests can only sample them", "anchors": ["src/obj.rs:671-696", "src/obj.rs:1073-1113", "src/obj.rs:401-488"]}
{"id": "C102", "title": "The Debug text of a value identifies it", "statement": "Values of the public types of both parsers (sets of objects, objects, corners, vertices, indices, elements, smoothing groups, shape entries, sets of materials, colors and errors) that have the same text under their derived Debug implementation are the same, whatever characters the standard library prints without escaping them. In particular two results of a parser, or two errors, with the same Debug text are equal. The Debug text of an f64 is read back as the number and is never taken for an integer.", "quantifier": "all values of the types whose strings are UTF-8, all OBJ and MTL texts, all tables of printable characters, all f64 numbers (NaNs not told apart)", "why_tests_cant": "the claim ranges over unboundedly many inputs; tests can only sample them", "anchors": ["src/obj.rs:119-400", "src/obj.rs:568-640", "src/mtl.rs:76-150", "src/mtl.rs:211-250"]}
{"id": "C103", "title": "The strings in a result are strings of characters", "statement": "Every name in a result of the OBJ parser is a token of the input, the empty string or default; every name in a result of the MTL parser is a token of the input. So, on a text of characters, all strings in results and the messages of all errors are UTF-8: the parsers never cut a character in two.", "quantifier": "all OBJ and MTL texts, all results and all errors, both build configurations", "why_tests_cant": "the claim ranges over unboundedly many inputs; tests can only sample them", "anchors": ["src/obj.rs:867-900", "src/obj.rs:1144-1210", "src/obj.rs:1521-1570", "src/lexer.rs:1-140", "src/mtl.rs:330-640"]}
{"id": "C104", "title": "Display on a target of any pointer width", "statement": "On a target with pointers of w bits an index, and an element, is displayed with one added to every number, modulo 2^w in a build without overflow checks; with overflow checks displaying it panics exactly if usize::MAX of that target is in it, and displaying an object exactly if it is in the first or last element. What obj::parse returns is displayed in the same way on every target and in every build profile on which the text fits in memory, and never panics.", "quantifier": "all pointer widths (at most 64 for the comparison), all indices, elements and objects whose numbers fit usize, all accepted OBJ texts shorter than 2^(w-1)-1 bytes, all build profiles", "why_tests_cant": "the claim ranges over unboundedly many inputs; tests can only sample them", "anchors": ["src/obj.rs:239-299", "src/obj.rs:531-590"]}
{"id": "C105", "title": "Shape of the triangulated surface", "statement": "The triangles of an object have the same vertices as the polygons of its f statements, and two vertices are joined by edges of triangles exactly if they are joined by sides of polygons. Twice the number of faces minus the number of their sides is the same for triangles and polygons. If no diagonal along which a polygon is cut is a side of a polygon or such a diagonal of another, the number of vertices minus the number of edges plus the number of faces is the same: triangulation keeps the Euler characteristic.", "quantifier": "all accepted OBJ texts, all their objects, any number and form of polygons", "why_tests_cant": "the claim ranges over unboundedly many inputs; tests can only sample them", "anchors": ["src/obj.rs:1068-1112"]}
{"id": "C106", "title": "Copies are the values they copy", "statement": "The copy (Clone) of a set of objects, a corner, a shape, a set of materials or an error is the same in every field. So a copy of a result compares equal (==) to it exactly if no number of the text is NaN. A copy of a lexer or of an OBJ parser taken at any time gives the same tokens and the same result, a token looked at ahead included, and is left in the same state. Kinds of MTL errors that are equal have equal hashes, and with a hasher that keeps words apart different kinds have different hashes. Shapes with the same Debug text are the same.", "quantifier": "all values, all states of a lexer or parser, all hashers", "why_tests_cant": "the claim ranges over unboundedly many inputs; tests can only sample them", "anchors": ["src/obj.rs: derive(Clone) of all types, struct Shape, Parser", "src/mtl.rs: derive(Clone), derive(Hash)", "src/lexer.rs: Lexer, PeekableLexer"]}
{"id": "C107", "title": "The alternate Debug text of a value identifies it", "statement": "Values of the public types of both parsers that have the same text under {:#?}, by which every field stands on lines of its own, indented by four spaces for every level, are the same, whatever characters the standard library prints without escaping them. In particular two results of a parser, or two errors, with the same {:#?} text are equal. Blocks open only at the end of a line and close only at the beginning of one, and every line is indented by exactly four spaces for every block it is in, whatever the names.", "quantifier": "all values whose strings are UTF-8, all results of both parsers", "why_tests_cant": "the claim ranges over unboundedly many inputs; tests can only sample them", "anchors": ["src/obj.rs: derive(Debug) of all types", "src/mtl.rs: derive(Debug) of all types"]}
