{
 "claims": [
  {
   "property": "C01",
   "status": "proved",
   "theorems": [
    "Verif.Props.C01_tokenisation",
    "Verif.Props.C01_token_shape",
    "Verif.Props.C01_token_position"
   ],
   "note": "The specification (Spec/Lexer.lean) splits lines, strips comments, splits words; the byte lexer is proved equal to it."
  },
  {
   "property": "C02",
   "status": "proved",
   "theorems": [
    "Verif.Props.C02_utf8",
    "Verif.Props.C02_tokens_of_characters",
    "Verif.Props.C02_encode_is_utf8"
   ],
   "note": "Validity is ByteArray.IsValidUTF8 of Lean's standard library."
  },
  {
   "property": "C03",
   "status": "proved",
   "theorems": [
    "Verif.Props.C03_none_only_at_end",
    "Verif.Props.C03_none_forever",
    "Verif.Props.C03_progress"
   ],
   "note": ""
  },
  {
   "property": "C04",
   "status": "proved",
   "theorems": [
    "Verif.Props.C04_peek_transparent"
   ],
   "note": ""
  },
  {
   "property": "C05",
   "status": "proved",
   "theorems": [
    "Verif.Props.C05_comments_obj",
    "Verif.Props.C05_comments_mtl"
   ],
   "note": ""
  },
  {
   "property": "C06",
   "status": "proved",
   "theorems": [
    "Verif.Props.C06_swap_blank_obj",
    "Verif.Props.C06_double_blank_obj",
    "Verif.Props.C06_swap_blank_mtl",
    "Verif.Props.C06_double_blank_mtl"
   ],
   "note": ""
  },
  {
   "property": "C07",
   "status": "proved",
   "theorems": [
    "Verif.Props.C07_terminates_obj",
    "Verif.Props.C07_terminates_mtl"
   ],
   "note": "The fuel of the model, input length plus one, is never exhausted and more fuel changes nothing. OBJ: For inputs shorter than 2^63 bytes (Rust slices cannot be longer)."
  },
  {
   "property": "C08",
   "status": "proved",
   "theorems": [
    "Verif.Props.C08_mtl_never_panics"
   ],
   "note": ""
  },
  {
   "property": "C09",
   "status": "partial",
   "theorems": [
    "Verif.Props.C09_refuted",
    "Verif.Props.C09_refuted_overflow",
    "Verif.Props.C09_exact",
    "Verif.Props.C09_panic_sites_partial"
   ],
   "note": "False of the code. Refuted with witnesses (an object without element and usemtl, e.g. \"v 0 0 0\\n\"; an overflowing negative index in checked builds); C09_exact says exactly when it panics and C09_panic_sites_partial that there are only these two sites. See C50."
  },
  {
   "property": "C10",
   "status": "proved",
   "theorems": [
    "Verif.Props.C10_indices_resolve"
   ],
   "note": "For inputs shorter than 2^63 bytes (Rust slices cannot be longer)."
  },
  {
   "property": "C11",
   "status": "proved",
   "theorems": [
    "Verif.Props.C11_uniform_elements",
    "Verif.Props.C11_mixed_line_rejected",
    "Verif.Props.C11_mixed_face_rejected"
   ],
   "note": "For inputs shorter than 2^63 bytes (Rust slices cannot be longer)."
  },
  {
   "property": "C12",
   "status": "proved",
   "theorems": [
    "Verif.Props.C12_shape_bijection",
    "Verif.Props.C12_shape_entries"
   ],
   "note": "For inputs shorter than 2^63 bytes (Rust slices cannot be longer)."
  },
  {
   "property": "C13",
   "status": "proved",
   "theorems": [
    "Verif.Props.C13_in_bounds"
   ],
   "note": "For inputs shorter than 2^63 bytes (Rust slices cannot be longer)."
  },
  {
   "property": "C14",
   "status": "proved",
   "theorems": [
    "Verif.Props.C14_geometry_partition"
   ],
   "note": "For inputs shorter than 2^63 bytes (Rust slices cannot be longer)."
  },
  {
   "property": "C15",
   "status": "partial",
   "theorems": [
    "Verif.Props.C15_groups_partial",
    "Verif.Props.C15_groups_exact",
    "Verif.Props.C15_refuted"
   ],
   "note": "False of the code for a g statement without names: the elements after it get no group (C15_refuted). Proved if all g statements before the element have names (C15_groups_partial); the exact rule is C15_groups_exact, see C51."
  },
  {
   "property": "C16",
   "status": "proved",
   "theorems": [
    "Verif.Props.C16_smoothing"
   ],
   "note": "For inputs shorter than 2^63 bytes (Rust slices cannot be longer)."
  },
  {
   "property": "C17",
   "status": "proved",
   "theorems": [
    "Verif.Props.C17_material"
   ],
   "note": "For inputs shorter than 2^63 bytes (Rust slices cannot be longer)."
  },
  {
   "property": "C18",
   "status": "proved",
   "theorems": [
    "Verif.Props.C18_vertex_data"
   ],
   "note": "f64 values are an uninterpreted function of the token. For inputs shorter than 2^63 bytes (Rust slices cannot be longer)."
  },
  {
   "property": "C19",
   "status": "proved",
   "theorems": [
    "Verif.Props.C19_indices_denote"
   ],
   "note": "For inputs shorter than 2^63 bytes (Rust slices cannot be longer)."
  },
  {
   "property": "C20",
   "status": "proved",
   "theorems": [
    "Verif.Props.C20_elements",
    "Verif.Props.C20_fan_and_segments"
   ],
   "note": "For inputs shorter than 2^63 bytes (Rust slices cannot be longer)."
  },
  {
   "property": "C21",
   "status": "partial",
   "theorems": [
    "Verif.Props.C21_points",
    "Verif.Props.C21_lines_partial",
    "Verif.Props.C21_faces_partial",
    "Verif.Props.C21_refuted",
    "Verif.Props.C21_swallowed"
   ],
   "note": "False of the code: after three references of a face (two of a line) the first faulty one is swallowed (C21_refuted, C21_swallowed). Proved for points, the first two references of lines and the first three of faces. See C52."
  },
  {
   "property": "C22",
   "status": "partial",
   "theorems": [
    "Verif.Props.C22_refuted"
   ],
   "note": "False of the code: C22_refuted shows that a non-positive index is never accepted. See C53."
  },
  {
   "property": "C23",
   "status": "proved",
   "theorems": [
    "Verif.Props.C23_objects",
    "Verif.Props.C23_no_leak"
   ],
   "note": "For inputs shorter than 2^63 bytes (Rust slices cannot be longer)."
  },
  {
   "property": "C24",
   "status": "proved",
   "theorems": [
    "Verif.Props.C24_libraries",
    "Verif.Props.C24_late_rejected"
   ],
   "note": "For inputs shorter than 2^63 bytes (Rust slices cannot be longer)."
  },
  {
   "property": "C25",
   "status": "proved",
   "theorems": [
    "Verif.Props.C25_lines_obj",
    "Verif.Props.C25_lines_mtl"
   ],
   "note": "OBJ: For inputs shorter than 2^63 bytes (Rust slices cannot be longer)."
  },
  {
   "property": "C26",
   "status": "proved",
   "theorems": [
    "Verif.Props.C26_position_obj",
    "Verif.Props.C26_position_mtl"
   ],
   "note": "OBJ: For inputs shorter than 2^63 bytes (Rust slices cannot be longer)."
  },
  {
   "property": "C27",
   "status": "proved",
   "theorems": [
    "Verif.Props.C27_language",
    "Verif.Props.C27_unambiguous",
    "Verif.Props.C27_errors",
    "Verif.Props.C27_objects_not_bare"
   ],
   "note": "The grammar is Spec/Obj.lean. For inputs shorter than 2^63 bytes (Rust slices cannot be longer)."
  },
  {
   "property": "C28",
   "status": "proved",
   "theorems": [
    "Verif.Props.C28_write_read",
    "Verif.Props.C28_read_valid",
    "Verif.Props.C28_normal_form"
   ],
   "note": "For inputs shorter than 2^63 bytes (Rust slices cannot be longer)."
  },
  {
   "property": "C29",
   "status": "proved",
   "theorems": [
    "Verif.Props.C29_language",
    "Verif.Props.C29_unambiguous",
    "Verif.Props.C29_errors"
   ],
   "note": ""
  },
  {
   "property": "C30",
   "status": "proved",
   "theorems": [
    "Verif.Props.C30_last_wins",
    "Verif.Props.C30_default",
    "Verif.Props.C30_materials"
   ],
   "note": ""
  },
  {
   "property": "C31",
   "status": "proved",
   "theorems": [
    "Verif.Props.C31_swap"
   ],
   "note": ""
  },
  {
   "property": "C32",
   "status": "proved",
   "theorems": [
    "Verif.Props.C32_concatenation"
   ],
   "note": ""
  },
  {
   "property": "C33",
   "status": "proved",
   "theorems": [
    "Verif.Props.C33_unknown_statement",
    "Verif.Props.C33_unknown_anywhere",
    "Verif.Props.C33_illumination",
    "Verif.Props.C33_text_before_newmtl"
   ],
   "note": ""
  },
  {
   "property": "C34",
   "status": "proved",
   "theorems": [
    "Verif.Props.C34_index",
    "Verif.Props.C34_element",
    "Verif.Props.C34_object"
   ],
   "note": "C34_object reads back the whole displayed geometry of an object; it assumes that displayed floats are read back (LawfulFloat), which Rust guarantees for finite and infinite f64."
  },
  {
   "property": "C35",
   "status": "proved",
   "theorems": [
    "Verif.Props.C35_exact",
    "Verif.Props.C35_equivalence",
    "Verif.Props.C35_values"
   ],
   "note": ""
  },
  {
   "property": "C36",
   "status": "proved",
   "theorems": [
    "Verif.Props.C36_exact",
    "Verif.Props.C36_some_iff"
   ],
   "note": ""
  },
  {
   "property": "C37",
   "status": "proved",
   "theorems": [
    "Verif.Props.C37_index",
    "Verif.Props.C37_smoothing",
    "Verif.Props.C37_print_index",
    "Verif.Props.C37_print_usize",
    "Verif.Props.C37_print_text"
   ],
   "note": ""
  },
  {
   "property": "C38",
   "status": "proved",
   "theorems": [
    "Verif.Props.C38_final_newline_obj",
    "Verif.Props.C38_final_newline_mtl"
   ],
   "note": "OBJ: For inputs shorter than 2^63 bytes (Rust slices cannot be longer)."
  },
  {
   "property": "C39",
   "status": "proved",
   "theorems": [
    "Verif.Props.C39_leading_newlines_obj",
    "Verif.Props.C39_leading_newlines_mtl"
   ],
   "note": "OBJ: For inputs shorter than 2^63 bytes (Rust slices cannot be longer)."
  },
  {
   "property": "C40",
   "status": "proved",
   "theorems": [
    "Verif.Props.C40_obj",
    "Verif.Props.C40_usize",
    "Verif.Props.C40_mtl"
   ],
   "note": "A second model does every addition with a largest value; with the bound input length plus one it still agrees with the model over natural numbers and never overflows. For inputs shorter than 2^63 bytes (Rust slices cannot be longer)."
  },
  {
   "property": "C41",
   "status": "partial",
   "theorems": [
    "Verif.Props.C41_names_partial",
    "Verif.Props.C41_refuted"
   ],
   "note": "False of the code: usemtl or o at the end of a line takes the newline as name, and a CR can be a name. C41_names_partial says exactly what names can be. See C54."
  },
  {
   "property": "C42",
   "status": "proved",
   "theorems": [
    "Verif.Props.C42_read_back",
    "Verif.Props.C42_off",
    "Verif.Props.C42_injective"
   ],
   "note": ""
  },
  {
   "property": "C43",
   "status": "proved",
   "theorems": [
    "Verif.Props.C43_finished_obj",
    "Verif.Props.C43_finished_mtl"
   ],
   "note": "OBJ: For inputs shorter than 2^63 bytes (Rust slices cannot be longer)."
  },
  {
   "property": "C44",
   "status": "partial",
   "theorems": [
    "Verif.Props.C44_refuted",
    "Verif.Props.C44_rejected"
   ],
   "note": "False of the code (C44_refuted); C44_rejected says in general that a CR after a complete statement is an error. See C55."
  },
  {
   "property": "C45",
   "status": "partial",
   "theorems": [
    "Verif.Props.C45_groups_partial",
    "Verif.Props.C45_refuted"
   ],
   "note": "False of the code for a g without names; proved if all g statements have names. See C56."
  },
  {
   "property": "C46",
   "status": "proved",
   "theorems": [
    "Verif.Props.C46_append_object",
    "Verif.Props.C46_prefix_kept"
   ],
   "note": "For inputs shorter than 2^63 bytes (Rust slices cannot be longer)."
  },
  {
   "property": "C47",
   "status": "proved",
   "theorems": [
    "Verif.Props.C47_unknown_line_rejected",
    "Verif.Props.C47_first_line_rejected"
   ],
   "note": "For inputs shorter than 2^63 bytes (Rust slices cannot be longer)."
  },
  {
   "property": "C48",
   "status": "proved",
   "theorems": [
    "Verif.Props.C48_display_total"
   ],
   "note": "For inputs shorter than 2^63 bytes (Rust slices cannot be longer)."
  },
  {
   "property": "C49",
   "status": "proved",
   "theorems": [
    "Verif.Props.C49_error_text",
    "Verif.Props.C49_error_form"
   ],
   "note": ""
  },
  {
   "property": "C50",
   "status": "proved",
   "theorems": [
    "Verif.Props.C50_panics_iff",
    "Verif.Props.C50_panic_site",
    "Verif.Props.C50_bare_object"
   ],
   "note": "For inputs shorter than 2^63 bytes (Rust slices cannot be longer)."
  },
  {
   "property": "C51",
   "status": "proved",
   "theorems": [
    "Verif.Props.C51_groups"
   ],
   "note": "For inputs shorter than 2^63 bytes (Rust slices cannot be longer)."
  },
  {
   "property": "C52",
   "status": "proved",
   "theorems": [
    "Verif.Props.C52_reported",
    "Verif.Props.C52_swallowed",
    "Verif.Props.C52_forgotten",
    "Verif.Props.C21_swallowed"
   ],
   "note": "For inputs shorter than 2^63 bytes (Rust slices cannot be longer)."
  },
  {
   "property": "C53",
   "status": "proved",
   "theorems": [
    "Verif.Props.C53_nonpositive"
   ],
   "note": "For inputs shorter than 2^63 bytes (Rust slices cannot be longer)."
  },
  {
   "property": "C54",
   "status": "proved",
   "theorems": [
    "Verif.Props.C54_names",
    "Verif.Props.C54_empty_name"
   ],
   "note": "For inputs shorter than 2^63 bytes (Rust slices cannot be longer)."
  },
  {
   "property": "C55",
   "status": "proved",
   "theorems": [
    "Verif.Props.C55_carriage_return",
    "Verif.Props.C44_refuted"
   ],
   "note": "For inputs shorter than 2^63 bytes (Rust slices cannot be longer)."
  },
  {
   "property": "C56",
   "status": "proved",
   "theorems": [
    "Verif.Props.C56_every_element_has_a_group"
   ],
   "note": "For inputs shorter than 2^63 bytes (Rust slices cannot be longer)."
  },
  {
   "property": "C57",
   "status": "proved",
   "theorems": [
    "Verif.Props.C57_assertions",
    "Verif.Props.C57_overflow_checks",
    "Verif.Props.C57_same_index",
    "Verif.Props.C57_same_result"
   ],
   "note": "For inputs shorter than 2^63 bytes (Rust slices cannot be longer)."
  },
  {
   "property": "C58",
   "status": "proved",
   "theorems": [
    "Verif.Props.C58_final_mtl",
    "Verif.Props.C58_final_obj",
    "Verif.Props.C58_final_panic"
   ],
   "note": "OBJ: For inputs shorter than 2^63 bytes (Rust slices cannot be longer)."
  },
  {
   "property": "C59",
   "status": "proved",
   "theorems": [
    "Verif.Props.C59_tables",
    "Verif.Props.C59_bytes",
    "Verif.Props.C59_groups",
    "Verif.Props.C59_quadratic",
    "Verif.Props.C59_reached",
    "Verif.Props.C59_materials"
   ],
   "note": "OBJ: For inputs shorter than 2^63 bytes (Rust slices cannot be longer)."
  },
  {
   "property": "C60",
   "status": "proved",
   "theorems": [
    "Verif.Props.C60_empty_line_obj",
    "Verif.Props.C60_empty_line_mtl",
    "Verif.Props.C60_last_line_mtl"
   ],
   "note": "OBJ: For inputs shorter than 2^63 bytes (Rust slices cannot be longer). The converse for OBJ is false (checked example)."
  },
  {
   "property": "C61",
   "status": "proved",
   "theorems": [
    "Verif.Props.C61_numbers_obj",
    "Verif.Props.C61_numbers_mtl"
   ],
   "note": "OBJ: For inputs shorter than 2^63 bytes (Rust slices cannot be longer)."
  },
  {
   "property": "C62",
   "status": "proved",
   "theorems": [
    "Verif.Props.C62_enough_mtl",
    "Verif.Props.C62_enough_obj",
    "Verif.Props.C62_same_mtl",
    "Verif.Props.C62_same_obj",
    "Verif.Props.C62_before_mtl",
    "Verif.Props.C62_before_obj"
   ],
   "note": "OBJ: For inputs shorter than 2^63 bytes (Rust slices cannot be longer)."
  },
  {
   "property": "C63",
   "status": "proved",
   "theorems": [
    "Verif.Props.C63_cut_obj",
    "Verif.Props.C63_cut_mtl"
   ],
   "note": "OBJ: For inputs shorter than 2^63 bytes (Rust slices cannot be longer)."
  },
  {
   "property": "C64",
   "status": "proved",
   "theorems": [
    "Verif.Props.C64_documented_obj"
   ],
   "note": "For inputs shorter than 2^63 bytes (Rust slices cannot be longer). Checked examples show that the excluded parts (vp, signed numbers, objects without elements) are documented but not accepted."
  },
  {
   "property": "C65",
   "status": "proved",
   "theorems": [
    "Verif.Props.C65_documented_mtl"
   ],
   "note": "Checked examples show that Tf and other illumination models are documented but not accepted."
  },
  {
   "property": "C66",
   "status": "proved",
   "theorems": [
    "Verif.Props.C66_free_form_rejected"
   ],
   "note": "For inputs shorter than 2^63 bytes (Rust slices cannot be longer)."
  },
  {
   "property": "C67",
   "status": "proved",
   "theorems": [
    "Verif.Props.C67_line_counter",
    "Verif.Props.C67_whole_text"
   ],
   "note": ""
  },
  {
   "property": "C68",
   "status": "proved",
   "theorems": [
    "Verif.Props.C68_float_obj",
    "Verif.Props.C68_float_mtl",
    "Verif.Props.C68_integers_are_floats"
   ],
   "note": ""
  },
  {
   "property": "C69",
   "status": "proved",
   "theorems": [
    "Verif.Props.C69_obj_message",
    "Verif.Props.C69_obj_kinds",
    "Verif.Props.C69_mtl_message",
    "Verif.Props.C69_mtl_kinds"
   ],
   "note": "For inputs shorter than 2^63 bytes (Rust slices cannot be longer)."
  },
  {
   "property": "C70",
   "status": "proved",
   "theorems": [
    "Verif.Props.C70_swap"
   ],
   "note": "For inputs shorter than 2^63 bytes (Rust slices cannot be longer)."
  },
  {
   "property": "C71",
   "status": "proved",
   "theorems": [
    "Verif.Props.C71_write_read",
    "Verif.Props.C71_normal_form",
    "Verif.Props.C71_values",
    "Verif.Props.C71_read_write"
   ],
   "note": "For numbers that are read back as displayed (the class LawfulFloat)."
  },
  {
   "property": "C72",
   "status": "proved",
   "theorems": [
    "Verif.Props.C72_calls_obj",
    "Verif.Props.C72_calls_mtl"
   ],
   "note": "For inputs shorter than 2^63 bytes (Rust slices cannot be longer). The counter is a wrapper around the lexer; the run with the counter has the same outcome as the run without."
  },
  {
   "property": "C73",
   "status": "proved",
   "theorems": [
    "Verif.Props.C73_equality_obj",
    "Verif.Props.C73_equality_mtl",
    "Verif.Props.C73_self_obj",
    "Verif.Props.C73_self_mtl",
    "Verif.Props.C73_nan_obj",
    "Verif.Props.C73_no_nan_obj",
    "Verif.Props.C73_nan_mtl",
    "Verif.Props.C73_no_nan_mtl",
    "Verif.Props.C73_color_order",
    "Verif.Props.C73_illumination_order",
    "Verif.Props.C73_equality_triple",
    "Verif.Props.C73_lookup"
   ],
   "note": "Comparison of two f64 is a parameter; the statements about NaN assume that a numeral differs from itself exactly if it is nan in any case, with or without a sign (the class IeeeEq). For inputs shorter than 2^63 bytes (Rust slices cannot be longer)."
  },
  {
   "property": "C74",
   "status": "proved",
   "theorems": [
    "Verif.Props.C74_lines_obj",
    "Verif.Props.C74_lines_mtl",
    "Verif.Props.C74_words_obj",
    "Verif.Props.C74_words_mtl",
    "Verif.Props.C74_optional",
    "Verif.Props.C74_index"
   ],
   "note": "The index part assumes counters below 2^63 (proved in C40) and an index that fits isize."
  },
  {
   "property": "C75",
   "status": "proved",
   "theorems": [
    "Verif.Props.C75_same",
    "Verif.Props.C75_extract",
    "Verif.Props.C75_join"
   ],
   "note": "For inputs shorter than 2^63 bytes (Rust slices cannot be longer). The texts written are the canonical ones of C28."
  },
  {
   "property": "C76",
   "status": "proved",
   "theorems": [
    "Verif.Props.C76_face",
    "Verif.Props.C76_line",
    "Verif.Props.C76_points",
    "Verif.Props.C76_material"
   ],
   "note": "For inputs shorter than 2^63 bytes (Rust slices cannot be longer)."
  },
  {
   "property": "C77",
   "status": "proved",
   "theorems": [
    "Verif.Props.C77_references",
    "Verif.Props.C77_points",
    "Verif.Props.C77_smoothing"
   ],
   "note": "For inputs shorter than 2^63 bytes (Rust slices cannot be longer)."
  },
  {
   "property": "C78",
   "status": "proved",
   "theorems": [
    "Verif.Props.C78_display",
    "Verif.Props.C78_object"
   ],
   "note": "For numbers that are read back as displayed (the class LawfulFloat). For inputs shorter than 2^63 bytes (Rust slices cannot be longer)."
  },
  {
   "property": "C79",
   "status": "proved",
   "theorems": [
    "Verif.Props.C79_exchange",
    "Verif.Props.C79_overridden",
    "Verif.Props.C79_spelling"
   ],
   "note": ""
  },
  {
   "property": "C80",
   "status": "proved",
   "theorems": [
    "Verif.Props.C80_obj",
    "Verif.Props.C80_mtl"
   ],
   "note": "For inputs shorter than 2^63 bytes (Rust slices cannot be longer)."
  },
  {
   "property": "C81",
   "status": "proved",
   "theorems": [
    "Verif.Props.C81_value",
    "Verif.Props.C81_reads",
    "Verif.Props.C81_obj",
    "Verif.Props.C81_mtl",
    "Verif.Props.C81_mtl_default",
    "Verif.Props.C81_one",
    "Verif.Props.C81_zero",
    "Verif.Props.C81_exact",
    "Verif.Props.C81_integer",
    "Verif.Props.C81_order"
   ],
   "note": "For inputs shorter than 2^63 bytes (Rust slices cannot be longer)."
  },
  {
   "property": "C82",
   "status": "proved",
   "theorems": [
    "Verif.Props.C82_coordinates",
    "Verif.Props.C82_numerals"
   ],
   "note": "For inputs shorter than 2^63 bytes (Rust slices cannot be longer)."
  },
  {
   "property": "C83",
   "status": "proved",
   "theorems": [
    "Verif.Props.C83_read_back",
    "Verif.Props.C83_injective",
    "Verif.Props.C83_shortest",
    "Verif.Props.C83_plain",
    "Verif.Props.C83_canonical",
    "Verif.Props.C83_others",
    "Verif.Props.C83_object"
   ],
   "note": "For inputs shorter than 2^63 bytes (Rust slices cannot be longer)."
  },
  {
   "property": "C84",
   "status": "proved",
   "theorems": [
    "Verif.Props.C84_order",
    "Verif.Props.C84_equal",
    "Verif.Props.C84_obj",
    "Verif.Props.C84_mtl",
    "Verif.Props.C84_symm",
    "Verif.Props.C84_trans",
    "Verif.Props.C84_color",
    "Verif.Props.C84_color_order",
    "Verif.Props.C84_triple"
   ],
   "note": ""
  },
  {
   "property": "C85",
   "status": "proved",
   "theorems": [
    "Verif.Props.C85_reads_obj",
    "Verif.Props.C85_reads_mtl"
   ],
   "note": "For inputs shorter than 2^63 bytes (Rust slices cannot be longer). The counter is part of a second model of the lexer, which is proved to give the same tokens."
  },
  {
   "property": "C86",
   "status": "proved",
   "theorems": [
    "Verif.Props.C86_index_text",
    "Verif.Props.C86_index_panics",
    "Verif.Props.C86_index_injective",
    "Verif.Props.C86_element_text",
    "Verif.Props.C86_element_panics",
    "Verif.Props.C86_element_injective",
    "Verif.Props.C86_object_panics",
    "Verif.Props.C86_set_panics"
   ],
   "note": ""
  },
  {
   "property": "C87",
   "status": "proved",
   "theorems": [
    "Verif.Props.C87_resume_obj",
    "Verif.Props.C87_resume_mtl",
    "Verif.Props.C87_stuck_obj",
    "Verif.Props.C87_stuck_mtl"
   ],
   "note": "For inputs shorter than 2^63 bytes (Rust slices cannot be longer)."
  },
  {
   "property": "C88",
   "status": "proved",
   "theorems": [
    "Verif.Props.C88_scene",
    "Verif.Props.C88_renumber",
    "Verif.Props.C88_insert"
   ],
   "note": "For inputs shorter than 2^63 bytes (Rust slices cannot be longer)."
  },
  {
   "property": "C89",
   "status": "proved",
   "theorems": [
    "Verif.Props.C89_results",
    "Verif.Props.C89_writer",
    "Verif.Props.C89_write_read",
    "Verif.Props.C89_iff",
    "Verif.Props.C89_materials"
   ],
   "note": "For inputs shorter than 2^63 bytes (Rust slices cannot be longer)."
  },
  {
   "property": "C90",
   "status": "proved",
   "theorems": [
    "Verif.Props.C90_grows_obj",
    "Verif.Props.C90_lines_obj",
    "Verif.Props.C90_grows_mtl"
   ],
   "note": "For inputs shorter than 2^63 bytes (Rust slices cannot be longer)."
  },
  {
   "property": "C91",
   "status": "proved",
   "theorems": [
    "Verif.Props.C91_peek",
    "Verif.Props.C91_skip",
    "Verif.Props.C91_skip_blank",
    "Verif.Props.C91_next_token",
    "Verif.Props.C91_peekable",
    "Verif.Props.C91_counting"
   ],
   "note": ""
  },
  {
   "property": "C92",
   "status": "proved",
   "theorems": [
    "Verif.Props.C92_numeral",
    "Verif.Props.C92_moderate",
    "Verif.Props.C92_sharp"
   ],
   "note": ""
  },
  {
   "property": "C93",
   "status": "proved",
   "theorems": [
    "Verif.Props.C93_tables",
    "Verif.Props.C93_defaults",
    "Verif.Props.C93_absent",
    "Verif.Props.C93_objects",
    "Verif.Props.C93_mtl",
    "Verif.Props.C93_kept"
   ],
   "note": "For inputs shorter than 2^63 bytes (Rust slices cannot be longer)."
  },
  {
   "property": "C94",
   "status": "proved",
   "theorems": [
    "Verif.Props.C94_obj",
    "Verif.Props.C94_accept",
    "Verif.Props.C94_wide",
    "Verif.Props.C94_machine",
    "Verif.Props.C94_mtl",
    "Verif.Props.C94_mtl_errors"
   ],
   "note": ""
  },
  {
   "property": "C95",
   "status": "proved",
   "theorems": [
    "Verif.Props.C95_edges",
    "Verif.Props.C95_boundary",
    "Verif.Props.C95_closed",
    "Verif.Props.C95_area",
    "Verif.Props.C95_segments",
    "Verif.Props.C95_ends"
   ],
   "note": "For inputs shorter than 2^63 bytes (Rust slices cannot be longer)."
  },
  {
   "property": "C96",
   "status": "proved",
   "theorems": [
    "Verif.Props.C96_mtl_accepted",
    "Verif.Props.C96_mtl_rejected",
    "Verif.Props.C96_obj"
   ],
   "note": ""
  },
  {
   "property": "C97",
   "status": "proved",
   "theorems": [
    "Verif.Props.C97_same",
    "Verif.Props.C97_differ"
   ],
   "note": "For inputs shorter than 2^63 bytes (Rust slices cannot be longer)."
  },
  {
   "property": "C98",
   "status": "proved",
   "theorems": [
    "Verif.Props.C98_same",
    "Verif.Props.C98_differ"
   ],
   "note": ""
  },
  {
   "property": "C99",
   "status": "proved",
   "theorems": [
    "Verif.Props.C99_object",
    "Verif.Props.C99_not_parsed",
    "Verif.Props.C99_first_element",
    "Verif.Props.C99_material"
   ],
   "note": "For inputs shorter than 2^63 bytes (Rust slices cannot be longer)."
  },
  {
   "property": "C100",
   "status": "proved",
   "theorems": [
    "Verif.Props.C100_orientation",
    "Verif.Props.C100_cover",
    "Verif.Props.C100_disjoint"
   ],
   "note": "For inputs shorter than 2^63 bytes (Rust slices cannot be longer)."
  },
  {
   "property": "C101",
   "status": "proved",
   "theorems": [
    "Verif.Props.C101_circulation",
    "Verif.Props.C101_winding"
   ],
   "note": "For inputs shorter than 2^63 bytes (Rust slices cannot be longer)."
  },
  {
   "property": "C102",
   "status": "proved",
   "theorems": [
    "Verif.Props.C102_objects",
    "Verif.Props.C102_object",
    "Verif.Props.C102_triple",
    "Verif.Props.C102_materials",
    "Verif.Props.C102_coordinates",
    "Verif.Props.C102_parts",
    "Verif.Props.C102_errors",
    "Verif.Props.C102_number",
    "Verif.Props.C102_obj_results",
    "Verif.Props.C102_obj_errors",
    "Verif.Props.C102_mtl_results",
    "Verif.Props.C102_mtl_errors"
   ],
   "note": "For inputs shorter than 2^63 bytes (Rust slices cannot be longer)."
  },
  {
   "property": "C103",
   "status": "proved",
   "theorems": [
    "Verif.Props.C103_objects",
    "Verif.Props.C103_objects_utf8",
    "Verif.Props.C103_obj_message",
    "Verif.Props.C103_materials",
    "Verif.Props.C103_materials_utf8",
    "Verif.Props.C103_mtl_message"
   ],
   "note": "For inputs shorter than 2^63 bytes (Rust slices cannot be longer)."
  },
  {
   "property": "C104",
   "status": "proved",
   "theorems": [
    "Verif.Props.C104_index_text",
    "Verif.Props.C104_index_panics",
    "Verif.Props.C104_element_text",
    "Verif.Props.C104_element_panics",
    "Verif.Props.C104_object_panics",
    "Verif.Props.C104_wide",
    "Verif.Props.C104_display",
    "Verif.Props.C104_results"
   ],
   "note": ""
  },
  {
   "property": "C105",
   "status": "proved",
   "theorems": [
    "Verif.Props.C105_vertices",
    "Verif.Props.C105_joined",
    "Verif.Props.C105_sides",
    "Verif.Props.C105_euler"
   ],
   "note": "For inputs shorter than 2^63 bytes (Rust slices cannot be longer)."
  },
  {
   "property": "C106",
   "status": "proved",
   "theorems": [
    "Verif.Props.C106_obj",
    "Verif.Props.C106_mtl",
    "Verif.Props.C106_errors",
    "Verif.Props.C106_equal_obj",
    "Verif.Props.C106_equal_mtl",
    "Verif.Props.C106_parser",
    "Verif.Props.C106_hash",
    "Verif.Props.C106_shape_debug"
   ],
   "note": ""
  },
  {
   "property": "C107",
   "status": "proved",
   "theorems": [
    "Verif.Props.C107_objects",
    "Verif.Props.C107_object",
    "Verif.Props.C107_materials",
    "Verif.Props.C107_obj_results",
    "Verif.Props.C107_mtl_results",
    "Verif.Props.C107_coordinates",
    "Verif.Props.C107_parts",
    "Verif.Props.C107_errors",
    "Verif.Props.C107_layout_obj",
    "Verif.Props.C107_layout_mtl"
   ],
   "note": ""
  }
 ]
}