import Verif.Proofs.ObjStmts

/-!
# Statements and statement sequences of an object: the code against the specification
-/

namespace Verif.Obj

open Verif Verif.Spec.Obj

variable {F : Type} [FloatSem F]

omit [FloatSem F] in
theorem fillDefaults_ctr (st : ObjState F) : (fillDefaults st).ctr = st.ctr := by
  simp only [fillDefaults]
  repeat' split
  all_goals rfl

theorem Stmt.length_lt {cfg : Cfg} {lo hi : Counts} {it : Item} {toks rest : List Tok}
    (h : Stmt cfg lo hi it toks rest) : rest.length < toks.length := by
  have end_le : ∀ {mid rest : List Tok}, EndLine mid rest → rest.length ≤ mid.length := by
    rintro mid rest (rfl | ⟨rfl, rfl⟩) <;> simp
  have stop_le : ∀ {mid rest : List Tok}, Stop cfg lo hi mid rest → rest.length ≤ mid.length := by
    rintro mid rest (⟨t, k, m, rfl, _⟩ | ⟨rfl, rfl⟩) <;> simp
  cases h with
  | g _ h => have := end_le h; simp; omega
  | p _ _ h => have := end_le h; simp; omega
  | l _ _ _ h => have := stop_le h; simp; omega
  | f _ _ _ h => have := stop_le h; simp; omega
  | _ => simp; try omega

/-- A statement starts with its keyword. -/
theorem Stmt.head {cfg : Cfg} {lo hi : Counts} {it : Item} {toks rest : List Tok}
    (h : Stmt cfg lo hi it toks rest) : ∃ t tl, toks = t :: tl ∧ t ≠ nl ∧ t ≠ b!"o" ∧ t ∈ keywords := by
  cases h <;> exact ⟨_, _, rfl, by decide, by decide, by decide⟩

theorem stmt_ok {cfg : Cfg} {lo hi : Counts} (hs : Small hi) {it : Item} {t : Tok}
    {toks rest : List Tok} (h : Stmt cfg lo hi it (t :: toks) rest) {st : ObjState F}
    (hc : st.ctr.ranges = rng lo hi) {fuel0 : Nat} (hf : (t :: toks).length < fuel0) :
    Yields (stmtStep cfg fuel0 t st) (t :: toks) (.ok (applyItem lo st it)) rest := by
  have helem : it.isElement = true →
      Yields (step_element cfg fuel0 st) (t :: toks) (.ok (applyItem lo st it)) rest := by
    intro he
    have h1 := elements_ok hs h he hf (fillDefaults st).elements
    rw [← hc, ← fillDefaults_ctr st] at h1
    unfold step_element
    have h2 := Yields.bind (f := fun r => (pure { fillDefaults st with
      elements := r.1
      max_element_group_index := (fillDefaults st).max_element_group_index + r.2
      max_element_smoothing_group_index := (fillDefaults st).max_element_smoothing_group_index + r.2
      max_element_material_name_index := (fillDefaults st).max_element_material_name_index + r.2 }
      : OP (List Tok) (ObjState F))) h1 (Yields.pure _ _)
    cases it <;> first | (exact Bool.noConfusion he) | exact h2
  simp only [List.length_cons] at hf
  cases h with
  | v3 hx hy hz hn =>
    simp only [stmtStep, List.cons.injEq]
    unfold step_v parse_vertex
    refine Yields.bind (Yields.bind (expect_tag_cons _ _) (three_ok hx hy hz
      (Yields.bind (try_none hn) (Yields.pure _ _)))) (Yields.pure _ _)
  | v4 hx hy hz hw =>
    simp only [stmtStep]
    unfold step_v parse_vertex
    refine Yields.bind (Yields.bind (expect_tag_cons _ _) (three_ok hx hy hz
      (Yields.bind (try_some hw _) (Yields.pure _ _)))) (Yields.pure _ _)
  | vt1 hu hn =>
    simp only [stmtStep]
    unfold step_vt parse_texture_vertex
    refine Yields.bind (Yields.bind (expect_tag_cons _ _) (Yields.bind (f64_ok hu _)
      (Yields.bind (try_none hn) (Yields.bind (try_none hn) (Yields.pure _ _))))) (Yields.pure _ _)
  | vt2 hu hv hn =>
    simp only [stmtStep]
    unfold step_vt parse_texture_vertex
    refine Yields.bind (Yields.bind (expect_tag_cons _ _) (Yields.bind (f64_ok hu _)
      (Yields.bind (try_some hv _) (Yields.bind (try_none hn) (Yields.pure _ _))))) (Yields.pure _ _)
  | vt3 hu hv hw =>
    simp only [stmtStep]
    unfold step_vt parse_texture_vertex
    refine Yields.bind (Yields.bind (expect_tag_cons _ _) (Yields.bind (f64_ok hu _)
      (Yields.bind (try_some hv _) (Yields.bind (try_some hw _) (Yields.pure _ _))))) (Yields.pure _ _)
  | vn hx hy hz =>
    simp only [stmtStep]
    unfold step_vn parse_normal_vertex
    refine Yields.bind (Yields.bind (expect_tag_cons _ _) (three_ok hx hy hz
      (Yields.pure _ _))) (Yields.pure _ _)
  | @g names mid rest hn hm =>
    simp only [stmtStep, if_true]
    simp only [List.length_append] at hf
    have h1 := Yields.bind (f := fun _ => parse_groups_loop fuel0 st.groups 0)
      (expect_tag_cons b!"g" (names ++ mid))
      (groups_loop hn hm (fuel := fuel0) (by omega) st.groups 0)
    unfold step_g
    rw [Nat.zero_add] at h1
    simp only [applyItem]
    split
    · exact Yields.bind h1 (Yields.pure _ _)
    · exact Yields.bind h1 (Yields.pure _ _)
  | @s t n rest ht =>
    simp only [stmtStep]
    have h1 : Yields (parse_smoothing_group st.smoothing_groups) (b!"s" :: t :: rest)
        (.ok (st.smoothing_groups ++ [⟨n⟩])) rest := by
      unfold parse_smoothing_group
      refine Yields.bind (expect_tag_cons _ _) (Yields.bind (Yields.next_cons _ _) ?_)
      rcases ht with ⟨rfl, rfl⟩ | ⟨h1, h2⟩
      · exact Yields.ite_pos rfl (Yields.pure _ _)
      · refine Yields.ite_neg h1 ?_
        rw [h2]
        exact Yields.pure _ _
    unfold step_s
    simp only [applyItem]
    refine Yields.ite_neg (by decide) (Yields.ite_pos trivial ?_)
    split
    · exact Yields.bind h1 (Yields.pure _ _)
    · exact Yields.bind h1 (Yields.pure _ _)
  | @usemtl name rest =>
    simp only [stmtStep]
    refine Yields.ite_neg (by decide) (Yields.ite_neg (by decide) (Yields.ite_pos trivial ?_))
    have h1 : Yields (parse_material_name st.material_names) (b!"usemtl" :: name :: rest)
        (.ok (st.material_names ++ [some name])) rest := by
      unfold parse_material_name
      exact Yields.bind (expect_tag_cons _ _) (Yields.bind (Yields.next_cons _ _) (Yields.pure _ _))
    unfold step_usemtl
    simp only [applyItem]
    by_cases hA : st.min_element_material_name_index = st.max_element_material_name_index
    · by_cases hB : st.material_names.isEmpty = true
      · simp only [hA, hB, if_true]
        exact Yields.bind (Yields.bind h1 (Yields.pure _ _)) (Yields.pure _ _)
      · simp only [hA, hB, if_true, if_false, Bool.false_eq_true]
        exact Yields.bind (Yields.bind h1 (Yields.pure _ _)) (Yields.pure _ _)
    · by_cases hB : st.material_names.isEmpty = true
      · simp only [hA, hB, if_true, if_false]
        exact Yields.bind (Yields.bind h1 (Yields.pure _ _)) (Yields.pure _ _)
      · simp only [hA, hB, if_false, Bool.false_eq_true]
        exact Yields.bind (Yields.bind h1 (Yields.pure _ _)) (Yields.pure _ _)
  | p => exact helem rfl
  | l => exact helem rfl
  | f => exact helem rfl

theorem keyword_cases {t : Tok} (h : t ∈ keywords) (h1 : t ≠ nl) (h2 : t ≠ b!"o") :
    t = b!"v" ∨ t = b!"vt" ∨ t = b!"vn" ∨ t = b!"g" ∨ t = b!"s" ∨ t = b!"usemtl" ∨
      t = b!"p" ∨ t = b!"l" ∨ t = b!"f" := by
  simp only [keywords, List.mem_cons, List.not_mem_nil, or_false] at h
  simp only [h1, h2, or_false] at h
  exact h

theorem elements_p {cfg : Cfg} {lo hi : Counts} {fuel : Nat} {es : List Element} {toks o rest}
    (h : Yields (do
        let parsed_value ← parse_isize
        let v_index ← calculate_index cfg (rng lo hi).vertex parsed_value
        parse_point_loop cfg (rng lo hi).vertex fuel (es ++ [Element.Point (.V v_index)]) 1)
      toks o rest) :
    Yields (parse_elements cfg fuel es (rng lo hi)) (b!"p" :: toks) o rest := by
  unfold parse_elements parse_point
  exact Yields.bind (Yields.peek _) (Yields.ite_pos rfl (Yields.bind (expect_tag_cons _ _) h))

theorem point_err {cfg : Cfg} {lo hi : Counts} (hs : Small hi) {ts : List Tok} {is : List Nat}
    (h : List.Forall₂ (NumTok lo.v hi.v) ts is) {t : Tok} {k m}
    (hb : NumErr cfg lo.v hi.v t k m) (hn : t = nl → ts = []) (rest : List Tok)
    {fuel : Nat} (hf : ts.length < fuel) (es : List Element) :
    Yields (parse_elements cfg fuel es (rng lo hi)) (b!"p" :: (ts ++ t :: rest)) (.err k m) rest := by
  refine elements_p ?_
  cases h with
  | nil =>
    cases hb with
    | notInt h =>
      refine Yields.bind_err ?_
      unfold parse_isize
      refine Yields.bind (next_string_cons _ _) ?_
      rw [h]; exact Yields.error _ _ _
    | range k h h1 h2 =>
      refine Yields.bind (a := k) (mid := rest) ?_ ?_
      · unfold parse_isize
        refine Yields.bind (next_string_cons _ _) ?_
        rw [h]; exact Yields.pure _ _
      · exact Yields.bind_err (calc_out cfg (parseIsize_range h).1 hs.1 h1 h2 _)
  | @cons t' k' ts is h1 h3 =>
    simp only [List.length_cons] at hf
    refine Yields.bind (a := (k' : Int)) (mid := ts ++ t :: rest) ?_ ?_
    · unfold parse_isize
      refine Yields.bind (next_string_cons _ _) ?_
      rw [h1.1]; exact Yields.pure _ _
    · refine Yields.bind (calc_in cfg h1.2.1 h1.2.2 _) ?_
      exact point_loop_bad hs.1 h3 (fun e => by simpa using hn e) hb rest (by omega) _ _

theorem point_panic {cfg : Cfg} {lo hi : Counts} {ts : List Tok} {is : List Nat}
    (h : List.Forall₂ (NumTok lo.v hi.v) ts is) {t : Tok}
    (hb : NumPanic cfg hi.v t) (rest : List Tok)
    {fuel : Nat} (hf : ts.length < fuel) (es : List Element) :
    Yields (parse_elements cfg fuel es (rng lo hi)) (b!"p" :: (ts ++ t :: rest))
      (.panic .indexSubOverflow) rest := by
  refine elements_p ?_
  cases h with
  | nil =>
    obtain ⟨k, h, h1⟩ := hb
    refine Yields.bind (a := k) (mid := rest) ?_ ?_
    · unfold parse_isize
      refine Yields.bind (next_string_cons _ _) ?_
      rw [h]; exact Yields.pure _ _
    · exact Yields.bind_panic (calc_panic h1 _)
  | @cons t' k' ts is h1 h3 =>
    simp only [List.length_cons] at hf
    refine Yields.bind (a := (k' : Int)) (mid := ts ++ t :: rest) ?_ ?_
    · unfold parse_isize
      refine Yields.bind (next_string_cons _ _) ?_
      rw [h1.1]; exact Yields.pure _ _
    · refine Yields.bind (calc_in cfg h1.2.1 h1.2.2 _) ?_
      exact point_loop_panic h3 hb rest (by omega) _ _

theorem elements_l {cfg : Cfg} {lo hi : Counts} {fuel : Nat} {es : List Element} {toks o rest}
    (h : Yields (parse_line cfg fuel es (rng lo hi)) (b!"l" :: toks) o rest) :
    Yields (parse_elements cfg fuel es (rng lo hi)) (b!"l" :: toks) o rest := by
  unfold parse_elements
  exact Yields.bind (Yields.peek _) (Yields.ite_neg (by simp) (Yields.ite_pos rfl h))

theorem elements_f {cfg : Cfg} {lo hi : Counts} {fuel : Nat} {es : List Element} {toks o rest}
    (h : Yields (parse_face cfg fuel es (rng lo hi)) (b!"f" :: toks) o rest) :
    Yields (parse_elements cfg fuel es (rng lo hi)) (b!"f" :: toks) o rest := by
  unfold parse_elements
  exact Yields.bind (Yields.peek _) (Yields.ite_neg (by simp) (Yields.ite_neg (by simp)
    (Yields.ite_pos rfl h)))

theorem elements_err {cfg : Cfg} {lo hi : Counts} (hs : Small hi) {t : Tok} {toks : List Tok} {k m rest}
    (h : StmtErr cfg lo hi (t :: toks) k m rest) (ht : t = b!"p" ∨ t = b!"l" ∨ t = b!"f")
    {fuel : Nat} (hf : (t :: toks).length < fuel) (es : List Element) :
    Yields (parse_elements cfg fuel es (rng lo hi)) (t :: toks) (.err k m) rest := by
  simp only [List.length_cons] at hf
  cases h with
  | p_eof =>
    refine elements_p (Yields.bind_err ?_)
    unfold parse_isize
    exact Yields.bind_err next_string_nil
  | p_bad h1 h2 h3 =>
    simp only [List.length_append] at hf
    exact point_err hs h1 h2 h3 _ (by omega) es
  | l_eof h1 h2 =>
    refine elements_l ?_
    unfold parse_line
    refine Yields.bind (expect_tag_cons _ _) ?_
    obtain _ | ⟨h4, h7⟩ := h2
    · exact Yields.bind_err (vtn_eof _ _)
    obtain _ | ⟨h5, h6⟩ := h7
    · exact Yields.bind (vtn_ok cfg h4 _) (Yields.bind_err (vtn_eof _ _))
    · simp only [List.length_cons] at h1; omega
  | l_bad h1 h2 h3 =>
    refine elements_l ?_
    unfold parse_line
    refine Yields.bind (expect_tag_cons _ _) ?_
    obtain _ | ⟨h4, h7⟩ := h2
    · exact Yields.bind_err (vtn_err hs h3 _)
    obtain _ | ⟨h5, h6⟩ := h7
    · exact Yields.bind (vtn_ok cfg h4 _) (Yields.bind_err (vtn_err hs h3 _))
    · simp only [List.length_cons] at h1; omega
  | l_mixed h0 h1 h2 h3 =>
    refine elements_l ?_
    unfold parse_line
    refine Yields.bind (expect_tag_cons _ _) ?_
    obtain _ | ⟨h4, h7⟩ := h1
    · simp at h0
    obtain _ | ⟨h5, h6⟩ := h7
    · simp at h0
    rename_i mid t r t' r' ts refs
    simp only [List.length_cons, List.length_append] at hf
    refine Yields.bind (vtn_ok cfg h4 _) ?_
    refine Yields.bind (vtn_ok cfg h5 _) ?_
    refine Yields.bind (vtns_ok hs h6 h3 (by omega) _) ?_
    have e : [r.resolve lo, r'.resolve lo] ++ refs.map (Ref.resolve lo)
      = (r :: r' :: refs).map (Ref.resolve lo) := rfl
    rw [e]
    refine Yields.ite_pos ?_ (Yields.error _ _ _)
    rw [← Bool.not_eq_true, verify_iff]
    exact h2
  | f_few h0 h1 h3 =>
    refine elements_f ?_
    unfold parse_face
    refine Yields.bind (expect_tag_cons _ _) ?_
    simp only [List.length_append] at hf
    refine Yields.bind (vtns_ok hs h1 h3 (by omega) _) ?_
    refine Yields.ite_pos ?_ (Yields.error _ _ _)
    simpa using h0
  | f_mixed h0 h1 h2 h3 =>
    refine elements_f ?_
    unfold parse_face
    refine Yields.bind (expect_tag_cons _ _) ?_
    simp only [List.length_append] at hf
    refine Yields.bind (vtns_ok hs h1 h3 (by omega) _) ?_
    simp only [List.nil_append]
    refine Yields.ite_neg (by simpa using h0) ?_
    refine Yields.ite_pos ?_ (Yields.error _ _ _)
    rw [← Bool.not_eq_true, verify_iff]
    exact h2
  | unknown h => rcases ht with rfl | rfl | rfl <;> simp [keywords] at h
  | _ => simp at ht

theorem elements_panic {cfg : Cfg} {lo hi : Counts} {t : Tok} {toks : List Tok} {rest}
    (h : StmtPanic cfg lo hi (t :: toks) rest) {fuel : Nat} (hf : (t :: toks).length < fuel)
    (es : List Element) :
    Yields (parse_elements cfg fuel es (rng lo hi)) (t :: toks) (.panic .indexSubOverflow) rest := by
  simp only [List.length_cons] at hf
  cases h with
  | p h1 h2 =>
    simp only [List.length_append] at hf
    exact point_panic h1 h2 _ (by omega) es
  | l h2 h3 =>
    refine elements_l ?_
    unfold parse_line
    refine Yields.bind (expect_tag_cons _ _) ?_
    obtain _ | ⟨h4, h7⟩ := h2
    · exact Yields.bind_panic (vtn_panic h3 _)
    obtain _ | ⟨h5, h6⟩ := h7
    · exact Yields.bind (vtn_ok cfg h4 _) (Yields.bind_panic (vtn_panic h3 _))
    simp only [List.length_cons, List.length_append] at hf
    refine Yields.bind (vtn_ok cfg h4 _) ?_
    refine Yields.bind (vtn_ok cfg h5 _) ?_
    exact Yields.bind_panic (vtns_panic h6 h3 _ (by omega) _)
  | f h1 h3 =>
    refine elements_f ?_
    unfold parse_face
    refine Yields.bind (expect_tag_cons _ _) ?_
    simp only [List.length_append] at hf
    exact Yields.bind_panic (vtns_panic h1 h3 _ (by omega) _)

theorem stmtStep_element {cfg : Cfg} {fuel0 : Nat} {t : Tok} (ht : t = b!"p" ∨ t = b!"l" ∨ t = b!"f")
    (st : ObjState F) : stmtStep cfg fuel0 t st = step_element cfg fuel0 st := by
  rcases ht with rfl | rfl | rfl <;> rfl

theorem stmt_err {cfg : Cfg} {lo hi : Counts} (hs : Small hi) {t : Tok}
    {toks rest : List Tok} {k m} (h : StmtErr cfg lo hi (t :: toks) k m rest) {st : ObjState F}
    (hc : st.ctr.ranges = rng lo hi) {fuel0 : Nat} (hf : (t :: toks).length < fuel0) :
    Yields (stmtStep cfg fuel0 t st) (t :: toks) (.err k m) rest := by
  by_cases ht : t = b!"p" ∨ t = b!"l" ∨ t = b!"f"
  · rw [stmtStep_element ht]
    unfold step_element
    refine Yields.bind_err ?_
    rw [fillDefaults_ctr, hc]
    exact elements_err hs h ht hf _
  · cases h with
    | v_eof h1 h2 =>
      simp only [stmtStep]
      unfold step_v parse_vertex
      exact Yields.bind_err (Yields.bind (expect_tag_cons _ _) (three_eof h1 h2 _))
    | v_bad h1 h2 h3 =>
      simp only [stmtStep]
      unfold step_v parse_vertex
      exact Yields.bind_err (Yields.bind (expect_tag_cons _ _) (three_bad h1 h2 h3 _))
    | vn_eof h1 h2 =>
      simp only [stmtStep]
      unfold step_vn parse_normal_vertex
      exact Yields.bind_err (Yields.bind (expect_tag_cons _ _) (three_eof h1 h2 _))
    | vn_bad h1 h2 h3 =>
      simp only [stmtStep]
      unfold step_vn parse_normal_vertex
      exact Yields.bind_err (Yields.bind (expect_tag_cons _ _) (three_bad h1 h2 h3 _))
    | vt_eof =>
      simp only [stmtStep]
      unfold step_vt parse_texture_vertex
      exact Yields.bind_err (Yields.bind (expect_tag_cons _ _) (Yields.bind_err f64_eof))
    | vt_bad h1 =>
      simp only [stmtStep]
      unfold step_vt parse_texture_vertex
      exact Yields.bind_err (Yields.bind (expect_tag_cons _ _) (Yields.bind_err (f64_err h1 _)))
    | s_eof =>
      simp only [stmtStep]
      have h1 : Yields (parse_smoothing_group st.smoothing_groups) [b!"s"]
          (.err .SmoothingGroupDeclarationHasNoName noSmoothText) [] := by
        unfold parse_smoothing_group
        exact Yields.bind (expect_tag_cons _ _) (Yields.bind Yields.next_nil (Yields.error _ _ _))
      unfold step_s
      refine Yields.ite_neg (by decide) (Yields.ite_pos trivial ?_)
      split
      · exact Yields.bind_err h1
      · exact Yields.bind_err h1
    | @s_bad t rest hb =>
      simp only [stmtStep]
      have h1 : Yields (parse_smoothing_group st.smoothing_groups) (b!"s" :: t :: rest)
          (.err .SmoothingGroupNameMustBeOffOrInteger (smoothText t)) rest := by
        unfold parse_smoothing_group
        refine Yields.bind (expect_tag_cons _ _) (Yields.bind (Yields.next_cons _ _) ?_)
        have h2 : t ≠ b!"off" := fun e => hb 0 (.inl ⟨e, rfl⟩)
        refine Yields.ite_neg h2 ?_
        cases h3 : parseUsize t with
        | some n => exact absurd (.inr ⟨h2, h3⟩) (hb n)
        | none => exact Yields.error _ _ _
      unfold step_s
      refine Yields.ite_neg (by decide) (Yields.ite_pos trivial ?_)
      split
      · exact Yields.bind_err h1
      · exact Yields.bind_err h1
    | usemtl_eof =>
      simp only [stmtStep]
      have h1 : Yields (parse_material_name st.material_names) [b!"usemtl"]
          (.err .MaterialStatementHasNoName noMaterialText) [] := by
        unfold parse_material_name
        exact Yields.bind (expect_tag_cons _ _) (Yields.bind Yields.next_nil (Yields.error _ _ _))
      unfold step_usemtl
      refine Yields.ite_neg (by decide) (Yields.ite_neg (by decide) (Yields.ite_pos trivial ?_))
      refine Yields.bind_err ?_
      repeat' split
      all_goals exact Yields.bind_err h1
    | unknown h =>
      simp only [keywords, List.mem_cons, List.not_mem_nil, or_false, not_or] at h
      obtain ⟨h1, h2, h3, h4, h5, h6, h7, h8, h9, h10, h11⟩ := h
      simp only [stmtStep, h1, h2, h3, h4, h5, h6, h7, h8, h9, or_false, if_false]
      exact Yields.error _ _ _
    | _ => simp at ht

theorem stmt_panic {cfg : Cfg} {lo hi : Counts} {t : Tok}
    {toks rest : List Tok} (h : StmtPanic cfg lo hi (t :: toks) rest) {st : ObjState F}
    (hc : st.ctr.ranges = rng lo hi) {fuel0 : Nat} (hf : (t :: toks).length < fuel0) :
    Yields (stmtStep cfg fuel0 t st) (t :: toks) (.panic .indexSubOverflow) rest := by
  have ht : t = b!"p" ∨ t = b!"l" ∨ t = b!"f" := by cases h <;> simp
  rw [stmtStep_element ht]
  unfold step_element
  refine Yields.bind_panic ?_
  rw [fillDefaults_ctr, hc]
  exact elements_panic h hf _

/-! ## Every statement is accepted, rejected or panics -/

theorem three_total (toks : List Tok) :
    (∃ x y z rest, toks = x :: y :: z :: rest ∧ isFloat x = true ∧ isFloat y = true ∧ isFloat z = true) ∨
    (toks.length < 3 ∧ ∀ x ∈ toks, isFloat x = true) ∨
    (∃ xs t rest, toks = xs ++ t :: rest ∧ xs.length < 3 ∧ (∀ x ∈ xs, isFloat x = true) ∧
      isFloat t = false) := by
  match toks with
  | [] => exact .inr (.inl (by simp))
  | x :: toks =>
    cases hx : isFloat x with
    | false => exact .inr (.inr ⟨[], x, toks, rfl, by simp, by simp, hx⟩)
    | true =>
      match toks with
      | [] => exact .inr (.inl (by simpa using hx))
      | y :: toks =>
        cases hy : isFloat y with
        | false => exact .inr (.inr ⟨[x], y, toks, rfl, by simp, by simpa using hx, hy⟩)
        | true =>
          match toks with
          | [] => exact .inr (.inl (by simp [hx, hy]))
          | z :: toks =>
            cases hz : isFloat z with
            | false => exact .inr (.inr ⟨[x, y], z, toks, rfl, by simp, by simp [hx, hy], hz⟩)
            | true => exact .inl ⟨x, y, z, toks, rfl, hx, hy, hz⟩

theorem noFloat_or (rest : List Tok) :
    NoFloat rest ∨ ∃ t rest', rest = t :: rest' ∧ isFloat t = true := by
  cases rest with
  | nil => exact .inl (by simp [NoFloat])
  | cons t rest =>
    cases h : isFloat t with
    | true => exact .inr ⟨t, rest, rfl, h⟩
    | false => exact .inl (by simpa [NoFloat] using h)

theorem stmt_total (cfg : Cfg) (lo hi : Counts) {t : Tok} (h1 : t ≠ nl) (h2 : t ≠ b!"o")
    (toks : List Tok) :
    (∃ it rest, Stmt cfg lo hi it (t :: toks) rest) ∨
    (∃ k m rest, StmtErr cfg lo hi (t :: toks) k m rest) ∨
    (∃ rest, StmtPanic cfg lo hi (t :: toks) rest) := by
  by_cases hk : t ∈ keywords
  swap
  · exact .inr (.inl ⟨_, _, _, .unknown hk⟩)
  rcases keyword_cases hk h1 h2 with rfl | rfl | rfl | rfl | rfl | rfl | rfl | rfl | rfl
  · rcases three_total toks with ⟨x, y, z, rest, rfl, hx, hy, hz⟩ | ⟨h1, h2⟩ | ⟨xs, t, rest, rfl, h1, h2, h3⟩
    · rcases noFloat_or rest with h | ⟨w, rest, rfl, hw⟩
      · exact .inl ⟨_, _, .v3 hx hy hz h⟩
      · exact .inl ⟨_, _, .v4 hx hy hz hw⟩
    · exact .inr (.inl ⟨_, _, _, .v_eof h1 h2⟩)
    · exact .inr (.inl ⟨_, _, _, .v_bad h1 h2 h3⟩)
  · cases toks with
    | nil => exact .inr (.inl ⟨_, _, _, .vt_eof⟩)
    | cons u toks =>
      cases hu : isFloat u with
      | false => exact .inr (.inl ⟨_, _, _, .vt_bad hu⟩)
      | true =>
        rcases noFloat_or toks with h | ⟨v, toks, rfl, hv⟩
        · exact .inl ⟨_, _, .vt1 hu h⟩
        · rcases noFloat_or toks with h | ⟨w, toks, rfl, hw⟩
          · exact .inl ⟨_, _, .vt2 hu hv h⟩
          · exact .inl ⟨_, _, .vt3 hu hv hw⟩
  · rcases three_total toks with ⟨x, y, z, rest, rfl, hx, hy, hz⟩ | ⟨h1, h2⟩ | ⟨xs, t, rest, rfl, h1, h2, h3⟩
    · exact .inl ⟨_, _, .vn hx hy hz⟩
    · exact .inr (.inl ⟨_, _, _, .vn_eof h1 h2⟩)
    · exact .inr (.inl ⟨_, _, _, .vn_bad h1 h2 h3⟩)
  · obtain ⟨names, mid, rest, rfl, h1, h2⟩ := names_total toks
    exact .inl ⟨_, _, .g h1 h2⟩
  · cases toks with
    | nil => exact .inr (.inl ⟨_, _, _, .s_eof⟩)
    | cons t toks =>
      by_cases h : ∃ n, SmoothTok t n
      · obtain ⟨n, h⟩ := h; exact .inl ⟨_, _, .s h⟩
      · exact .inr (.inl ⟨_, _, _, .s_bad (fun n hn => h ⟨n, hn⟩)⟩)
  · cases toks with
    | nil => exact .inr (.inl ⟨_, _, _, .usemtl_eof⟩)
    | cons t toks => exact .inl ⟨_, _, .usemtl⟩
  · obtain ⟨ts, is, mid, rfl, h1, h | ⟨t, k, m, rest, rfl, ht, h⟩ | ⟨t, rest, rfl, h⟩⟩ :=
      nums_total cfg lo.v hi.v toks
    · obtain ⟨rest, h⟩ := h
      by_cases hi : is = []
      · subst hi
        cases h1
        rcases h with rfl | ⟨rfl, rfl⟩
        · exact .inr (.inl ⟨_, _, _, .p_bad .nil (.notInt parseIsize_nl) (fun _ => rfl)⟩)
        · exact .inr (.inl ⟨_, _, _, .p_eof⟩)
      · exact .inl ⟨_, _, .p hi h1 h⟩
    · exact .inr (.inl ⟨_, _, _, .p_bad h1 h (fun e => absurd e ht)⟩)
    · exact .inr (.inr ⟨_, .p h1 h⟩)
  · obtain ⟨ts, refs, mid, rfl, h1, ⟨rest, h⟩ | ⟨t, rest, rfl, h⟩⟩ := refs_total cfg lo hi toks
    · have hl := h1.length_eq
      by_cases h2 : 2 ≤ refs.length
      · by_cases hu : Uniform refs
        · exact .inl ⟨_, _, .l h2 h1 hu h⟩
        · exact .inr (.inl ⟨_, _, _, .l_mixed h2 h1 hu h⟩)
      · rcases h with ⟨t, k, m, rfl, h⟩ | ⟨rfl, rfl⟩
        · exact .inr (.inl ⟨_, _, _, .l_bad (by omega) h1 h⟩)
        · refine .inr (.inl ⟨_, _, _, .l_eof (refs := refs) ?_ ?_⟩) <;> simp <;> omega
    · exact .inr (.inr ⟨_, .l h1 h⟩)
  · obtain ⟨ts, refs, mid, rfl, h1, ⟨rest, h⟩ | ⟨t, rest, rfl, h⟩⟩ := refs_total cfg lo hi toks
    · by_cases h2 : 3 ≤ refs.length
      · by_cases hu : Uniform refs
        · exact .inl ⟨_, _, .f h2 h1 hu h⟩
        · exact .inr (.inl ⟨_, _, _, .f_mixed h2 h1 hu h⟩)
      · exact .inr (.inl ⟨_, _, _, .f_few (by omega) h1 h⟩)
    · exact .inr (.inr ⟨_, .f h1 h⟩)

end Verif.Obj
