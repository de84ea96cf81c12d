import Verif.Proofs.ObjRefs

/-!
# OBJ statements: the code against the specification
-/

namespace Verif.Obj

open Verif Verif.Spec.Obj

variable {F : Type} [FloatSem F]

/-! ## Floating point numbers -/

theorem f64_ok {t : Tok} (h : isFloat t = true) (rest : List Tok) :
    Yields (parse_f64 : OP _ F) (t :: rest) (.ok (FloatSem.value t)) rest := by
  unfold parse_f64
  refine Yields.bind (next_string_cons _ _) ?_
  simp only [parseF64, h, if_true]
  exact Yields.pure _ _

theorem f64_err {t : Tok} (h : isFloat t = false) (rest : List Tok) :
    Yields (parse_f64 : OP _ F) (t :: rest) (.err .ExpectedFloat (floatText t)) rest := by
  unfold parse_f64
  refine Yields.bind (next_string_cons _ _) ?_
  simp only [parseF64, h, Bool.false_eq_true, if_false]
  exact Yields.error _ _ _

theorem f64_eof : Yields (parse_f64 : OP _ F) [] (.err .EndOfFile eofText) [] := by
  unfold parse_f64
  exact Yields.bind_err next_string_nil

theorem try_some {t : Tok} (h : isFloat t = true) (rest : List Tok) :
    Yields (try_once_f64 : OP _ (Option F)) (t :: rest) (.ok (some (FloatSem.value t))) rest := by
  unfold try_once_f64
  refine Yields.bind (Yields.peek _) ?_
  simp only [List.head?_cons, parseF64, h, if_true]
  exact Yields.bind (Yields.advance_cons _ _) (Yields.pure _ _)

theorem try_none {rest : List Tok} (h : NoFloat rest) :
    Yields (try_once_f64 : OP _ (Option F)) rest (.ok none) rest := by
  unfold try_once_f64
  refine Yields.bind (Yields.peek _) ?_
  cases rest with
  | nil => exact Yields.pure _ _
  | cons t rest =>
    have : isFloat t = false := h t (by simp)
    simp only [List.head?_cons, parseF64, this, Bool.false_eq_true, if_false]
    exact Yields.pure _ _

/-- Three numbers, as in `v` and `vn`; `k` is the rest of the method. -/
theorem three_ok {α : Type} {x y z : Tok} (hx : isFloat x = true) (hy : isFloat y = true)
    (hz : isFloat z = true) {k : F → F → F → OP (List Tok) α} {rest : List Tok} {o : Res ErrorKind α}
    {rest' : List Tok}
    (h : Yields (k (FloatSem.value x) (FloatSem.value y) (FloatSem.value z)) rest o rest') :
    Yields (do let a ← parse_f64; let b ← parse_f64; let c ← parse_f64; k a b c)
      (x :: y :: z :: rest) o rest' :=
  Yields.bind (f64_ok hx _) (Yields.bind (f64_ok hy _) (Yields.bind (f64_ok hz _) h))

theorem three_eof {α : Type} {xs : List Tok} (hl : xs.length < 3) (hx : ∀ x ∈ xs, isFloat x = true)
    (k : F → F → F → OP (List Tok) α) :
    Yields (do let a ← parse_f64; let b ← parse_f64; let c ← parse_f64; k a b c)
      xs (.err .EndOfFile eofText) [] := by
  match xs, hl, hx with
  | [], _, _ => exact Yields.bind_err f64_eof
  | [x], _, hx => exact Yields.bind (f64_ok (hx x (by simp)) _) (Yields.bind_err f64_eof)
  | [x, y], _, hx =>
    exact Yields.bind (f64_ok (hx x (by simp)) _) (Yields.bind (f64_ok (hx y (by simp)) _)
      (Yields.bind_err f64_eof))

theorem three_bad {α : Type} {xs : List Tok} {t : Tok} {rest : List Tok} (hl : xs.length < 3)
    (hx : ∀ x ∈ xs, isFloat x = true) (ht : isFloat t = false)
    (k : F → F → F → OP (List Tok) α) :
    Yields (do let a ← parse_f64; let b ← parse_f64; let c ← parse_f64; k a b c)
      (xs ++ t :: rest) (.err .ExpectedFloat (floatText t)) rest := by
  match xs, hl, hx with
  | [], _, _ => exact Yields.bind_err (f64_err ht _)
  | [x], _, hx => exact Yields.bind (f64_ok (hx x (by simp)) _) (Yields.bind_err (f64_err ht _))
  | [x, y], _, hx =>
    exact Yields.bind (f64_ok (hx x (by simp)) _) (Yields.bind (f64_ok (hx y (by simp)) _)
      (Yields.bind_err (f64_err ht _)))

/-! ## Lists of names -/

theorem groups_loop {names : List Bytes} (hn : nl ∉ names) {mid rest : List Tok}
    (hm : EndLine mid rest) {fuel : Nat} (hf : names.length < fuel) (gs : List Group) (n : Nat) :
    Yields (parse_groups_loop fuel gs n) (names ++ mid)
      (.ok (gs ++ names.map Group.mk, n + names.length)) rest := by
  induction names generalizing fuel gs n with
  | nil =>
    obtain ⟨fuel, rfl⟩ : ∃ k, fuel = k + 1 := ⟨fuel - 1, by omega⟩
    unfold parse_groups_loop
    simp only [List.nil_append, List.map_nil, List.append_nil, List.length_nil, Nat.add_zero]
    rcases hm with rfl | ⟨rfl, rfl⟩
    · exact Yields.bind (Yields.next_cons _ _) (Yields.ite_neg (by simp) (Yields.pure _ _))
    · exact Yields.bind Yields.next_nil (Yields.pure _ _)
  | cons t names ih =>
    simp only [List.length_cons] at hf
    obtain ⟨fuel, rfl⟩ : ∃ k, fuel = k + 1 := ⟨fuel - 1, by omega⟩
    unfold parse_groups_loop
    simp only [List.mem_cons, not_or] at hn
    refine Yields.bind (Yields.next_cons _ _) (Yields.ite_pos (fun h => hn.1 h.symm) ?_)
    have := ih hn.2 (fuel := fuel) (by omega) (gs ++ [⟨t⟩]) (n + 1)
    simp only [List.append_assoc, List.singleton_append] at this
    simp only [List.map_cons, List.length_cons]
    rw [show n + (names.length + 1) = n + 1 + names.length by omega]
    exact this

theorem mtllib_loop {names : List Bytes} (hn : nl ∉ names) {mid rest : List Tok}
    (hm : EndLine mid rest) {fuel : Nat} (hf : names.length < fuel) (libs : List Bytes) :
    Yields (mtllib_line_loop fuel libs) (names ++ mid) (.ok (libs ++ names)) rest := by
  induction names generalizing fuel libs with
  | nil =>
    obtain ⟨fuel, rfl⟩ : ∃ k, fuel = k + 1 := ⟨fuel - 1, by omega⟩
    unfold mtllib_line_loop
    simp only [List.nil_append, List.append_nil]
    rcases hm with rfl | ⟨rfl, rfl⟩
    · exact Yields.bind (Yields.next_cons _ _) (Yields.ite_neg (by simp) (Yields.pure _ _))
    · exact Yields.bind Yields.next_nil (Yields.pure _ _)
  | cons t names ih =>
    simp only [List.length_cons] at hf
    obtain ⟨fuel, rfl⟩ : ∃ k, fuel = k + 1 := ⟨fuel - 1, by omega⟩
    unfold mtllib_line_loop
    simp only [List.mem_cons, not_or] at hn
    refine Yields.bind (Yields.next_cons _ _) (Yields.ite_pos (fun h => hn.1 h.symm) ?_)
    have := ih hn.2 (fuel := fuel) (by omega) (libs ++ [t])
    simpa using this

/-- Every token list starts with a list of names and an end of line. -/
theorem names_total (toks : List Tok) :
    ∃ names mid rest, toks = names ++ mid ∧ nl ∉ names ∧ EndLine mid rest := by
  induction toks with
  | nil => exact ⟨[], [], [], rfl, by simp, .inr ⟨rfl, rfl⟩⟩
  | cons t toks ih =>
    by_cases h : t = nl
    · subst h; exact ⟨[], _, toks, rfl, by simp, .inl rfl⟩
    · obtain ⟨names, mid, rest, rfl, h1, h2⟩ := ih
      refine ⟨t :: names, mid, rest, rfl, ?_, h2⟩
      simp only [List.mem_cons, not_or]
      exact ⟨fun e => h e.symm, h1⟩

/-! ## Elements -/

theorem has_same_type_iff (lo : Counts) (a b : Ref) :
    (a.resolve lo).has_same_type_as (b.resolve lo) = true ↔ a.form = b.form := by
  obtain ⟨v, vt, vn⟩ := a
  obtain ⟨v', vt', vn'⟩ := b
  cases vt <;> cases vn <;> cases vt' <;> cases vn' <;>
    simp [Ref.resolve, VTNIndex.has_same_type_as, Ref.form]

theorem verify_iff (lo : Counts) (refs : List Ref) :
    verify_vtn_indices (refs.map (Ref.resolve lo)) = true ↔ Uniform refs := by
  cases refs with
  | nil => simp [verify_vtn_indices, Uniform]
  | cons a refs =>
    simp only [List.map_cons, verify_vtn_indices, List.all_map, List.all_eq_true,
      Function.comp_apply, has_same_type_iff, Uniform]
    constructor
    · intro h
      have key : ∀ x ∈ a :: refs, x.form = a.form := by
        intro x hx
        rcases List.mem_cons.1 hx with rfl | hx
        · rfl
        · exact h x hx
      intro x hx y hy
      rw [key x hx, key y hy]
    · intro h x hx
      exact h x (List.mem_cons_of_mem _ hx) a (by simp)

theorem mapM_range_eq {α : Type} (l : List α) (f : Nat → Option α) (h : ∀ i, i < l.length → f i = l[i]?)
    (n : Nat) (hn : n = l.length) : (List.range n).mapM f = some l := by
  subst hn
  have key : ∀ m, m ≤ l.length → (List.range m).mapM f = some (l.take m) := by
    intro m
    induction m with
    | zero => intro _; simp
    | succ m ih =>
      intro hm
      rw [List.range_succ, List.mapM_append, ih (by omega)]
      simp only [List.mapM_cons, List.mapM_nil, h m (by omega)]
      rw [List.getElem?_eq_getElem (by omega)]
      simp
  rw [key _ (by omega), List.take_length]

theorem segments_length (l : List VTNIndex) : (segments l).length = l.length - 1 := by
  simp [segments]

theorem fan_length (l : List VTNIndex) : (fan l).length = l.length - 2 := by
  cases l with
  | nil => rfl
  | cons a r => simp [fan]

theorem lineSegments_eq (es : List Element) {l : List VTNIndex} (hl : 1 ≤ l.length) :
    lineSegments es l = some (es ++ segments l, (segments l).length) := by
  unfold lineSegments
  rw [if_neg (by omega)]
  rw [mapM_range_eq (segments l) _ ?_ _ (segments_length l).symm]
  · simp [segments_length]
  · intro i hi
    rw [segments_length] at hi
    simp only [segments, List.getElem?_zipWith, List.getElem?_tail]
    rw [List.getElem?_eq_getElem (show i < l.length by omega),
      List.getElem?_eq_getElem (show i + 1 < l.length by omega)]
    rfl

theorem triangulate_eq (es : List Element) {l : List VTNIndex} (hl : 3 ≤ l.length) :
    triangulate es l = some (es ++ fan l, (fan l).length) := by
  unfold triangulate
  cases l with
  | nil => simp at hl
  | cons a r =>
    simp only [List.length_cons] at hl
    simp only [List.getElem?_cons_zero, Option.bind_eq_bind, Option.bind_some]
    rw [if_neg (by simp only [List.length_cons]; omega)]
    rw [mapM_range_eq (fan (a :: r)) _ ?_ _ (fan_length _).symm]
    · simp [fan_length]
    · intro i hi
      rw [fan_length] at hi
      simp only [List.length_cons] at hi
      simp only [fan, List.getElem?_zipWith, List.getElem?_tail, List.getElem?_cons_succ]
      rw [List.getElem?_eq_getElem (show i < r.length by omega),
        List.getElem?_eq_getElem (show i + 1 < r.length by omega)]
      rfl

theorem point_loop {cfg : Cfg} {lo hi : Nat} {ts : List Tok} {is : List Nat}
    (h : List.Forall₂ (NumTok lo hi) ts is) {mid rest : List Tok} (hm : EndLine mid rest)
    {fuel : Nat} (hf : ts.length < fuel) (es : List Element) (n : Nat) :
    Yields (parse_point_loop cfg (lo, hi) fuel es n) (ts ++ mid)
      (.ok (es ++ is.map (fun k => .Point (.V (k - 1 - lo))), n + is.length)) rest := by
  induction h generalizing fuel es n with
  | nil =>
    obtain ⟨fuel, rfl⟩ : ∃ k, fuel = k + 1 := ⟨fuel - 1, by omega⟩
    unfold parse_point_loop
    simp only [List.nil_append, List.map_nil, List.append_nil, List.length_nil, Nat.add_zero]
    rcases hm with rfl | ⟨rfl, rfl⟩
    · exact Yields.bind (Yields.next_cons _ _) (Yields.ite_neg (by simp) (Yields.pure _ _))
    · exact Yields.bind Yields.next_nil (Yields.pure _ _)
  | @cons t k ts is h1 h2 ih =>
    simp only [List.length_cons] at hf
    obtain ⟨fuel, rfl⟩ : ∃ k, fuel = k + 1 := ⟨fuel - 1, by omega⟩
    unfold parse_point_loop
    refine Yields.bind (Yields.next_cons _ _) (Yields.ite_pos (numTok_ne_nl h1) ?_)
    rw [h1.1]
    refine Yields.bind (calc_in cfg h1.2.1 h1.2.2 _) ?_
    have := ih (fuel := fuel) (by omega) (es ++ [.Point (.V (k - 1 - lo))]) (n + 1)
    simp only [List.append_assoc, List.singleton_append] at this
    simp only [List.map_cons, List.length_cons]
    rw [show n + (is.length + 1) = n + 1 + is.length by omega]
    exact this

theorem point_loop_bad {cfg : Cfg} {lo hi : Nat} (hs : hi < 2 ^ 63) {ts : List Tok} {is : List Nat}
    (h : List.Forall₂ (NumTok lo hi) ts is) {t : Tok} {k m} (ht : t ≠ nl)
    (hb : NumErr cfg lo hi t k m) (rest : List Tok)
    {fuel : Nat} (hf : ts.length < fuel) (es : List Element) (n : Nat) :
    Yields (parse_point_loop cfg (lo, hi) fuel es n) (ts ++ t :: rest) (.err k m) rest := by
  induction h generalizing fuel es n with
  | nil =>
    obtain ⟨fuel, rfl⟩ : ∃ k, fuel = k + 1 := ⟨fuel - 1, by omega⟩
    unfold parse_point_loop
    refine Yields.bind (Yields.next_cons _ _) (Yields.ite_pos ht ?_)
    cases hb with
    | notInt h => rw [h]; exact Yields.error _ _ _
    | range k h h1 h2 =>
      rw [h]
      exact Yields.bind_err (calc_out cfg (parseIsize_range h).1 hs h1 h2 _)
  | @cons t k ts is h1 h2 ih =>
    simp only [List.length_cons] at hf
    obtain ⟨fuel, rfl⟩ : ∃ k, fuel = k + 1 := ⟨fuel - 1, by omega⟩
    unfold parse_point_loop
    refine Yields.bind (Yields.next_cons _ _) (Yields.ite_pos (numTok_ne_nl h1) ?_)
    rw [h1.1]
    refine Yields.bind (calc_in cfg h1.2.1 h1.2.2 _) ?_
    exact ih (fuel := fuel) (by omega) _ _

theorem point_loop_panic {cfg : Cfg} {lo hi : Nat} {ts : List Tok} {is : List Nat}
    (h : List.Forall₂ (NumTok lo hi) ts is) {t : Tok}
    (hb : NumPanic cfg hi t) (rest : List Tok)
    {fuel : Nat} (hf : ts.length < fuel) (es : List Element) (n : Nat) :
    Yields (parse_point_loop cfg (lo, hi) fuel es n) (ts ++ t :: rest)
      (.panic .indexSubOverflow) rest := by
  induction h generalizing fuel es n with
  | nil =>
    obtain ⟨fuel, rfl⟩ : ∃ k, fuel = k + 1 := ⟨fuel - 1, by omega⟩
    unfold parse_point_loop
    refine Yields.bind (Yields.next_cons _ _) (Yields.ite_pos (numPanic_ne_nl hb) ?_)
    obtain ⟨k, h, h1⟩ := hb
    rw [h]
    exact Yields.bind_panic (calc_panic h1 _)
  | @cons t k ts is h1 h2 ih =>
    simp only [List.length_cons] at hf
    obtain ⟨fuel, rfl⟩ : ∃ k, fuel = k + 1 := ⟨fuel - 1, by omega⟩
    unfold parse_point_loop
    refine Yields.bind (Yields.next_cons _ _) (Yields.ite_pos (numTok_ne_nl h1) ?_)
    rw [h1.1]
    refine Yields.bind (calc_in cfg h1.2.1 h1.2.2 _) ?_
    exact ih (fuel := fuel) (by omega) _ _

/-- Every token list starts with numbers and then an end of line, an error or a panic. -/
theorem nums_total (cfg : Cfg) (lo hi : Nat) (toks : List Tok) :
    ∃ ts is mid, toks = ts ++ mid ∧ List.Forall₂ (NumTok lo hi) ts is ∧
      ((∃ rest, EndLine mid rest) ∨
       (∃ t k m rest, mid = t :: rest ∧ t ≠ nl ∧ NumErr cfg lo hi t k m) ∨
       (∃ t rest, mid = t :: rest ∧ NumPanic cfg hi t)) := by
  induction toks with
  | nil => exact ⟨[], [], [], rfl, .nil, .inl ⟨[], .inr ⟨rfl, rfl⟩⟩⟩
  | cons t toks ih =>
    rcases num_total cfg lo hi t with ⟨r, h⟩ | ⟨k, m, h⟩ | h
    · obtain ⟨ts, refs, mid, rfl, h1, h2⟩ := ih
      exact ⟨t :: ts, r :: refs, mid, rfl, .cons h h1, h2⟩
    · by_cases ht : t = nl
      · subst ht; exact ⟨[], [], _, rfl, .nil, .inl ⟨toks, .inl rfl⟩⟩
      · exact ⟨[], [], t :: toks, rfl, .nil, .inr (.inl ⟨t, k, m, toks, rfl, ht, h⟩)⟩
    · exact ⟨[], [], t :: toks, rfl, .nil, .inr (.inr ⟨t, toks, rfl, h⟩)⟩

/-- The element statements. -/
theorem elements_ok {cfg : Cfg} {lo hi : Counts} (hs : Small hi) {it : Item} {toks rest : List Tok}
    (h : Stmt cfg lo hi it toks rest) (he : it.isElement = true) {fuel : Nat}
    (hf : toks.length < fuel) (es : List Element) :
    Yields (parse_elements cfg fuel es (rng lo hi)) toks
      (.ok (es ++ it.elements lo, (it.elements lo).length)) rest := by
  unfold parse_elements
  refine Yields.bind (Yields.peek _) ?_
  cases h with
  | @p ts is mid rest h0 h1 h2 =>
    refine Yields.ite_pos rfl ?_
    unfold parse_point
    refine Yields.bind (expect_tag_cons _ _) ?_
    cases h1 with
    | nil => simp at h0
    | @cons t k ts is h1 h3 =>
      simp only [List.length_cons, List.length_append] at hf
      refine Yields.bind (a := (k : Int)) (mid := ts ++ mid) ?_ ?_
      · unfold parse_isize
        refine Yields.bind (next_string_cons _ _) ?_
        rw [h1.1]; exact Yields.pure _ _
      · refine Yields.bind (calc_in cfg h1.2.1 h1.2.2 _) ?_
        have := point_loop (cfg := cfg) h3 h2 (fuel := fuel) (by omega)
          (es ++ [.Point (.V (k - 1 - lo.v))]) 1
        simp only [List.append_assoc, List.singleton_append] at this
        simp only [Item.elements, List.map_cons, List.length_cons, List.length_map]
        rw [show is.length + 1 = 1 + is.length by omega]
        exact this
  | @l ts refs mid rest h0 h1 h2 h3 =>
    refine Yields.ite_neg (by simp) (Yields.ite_pos rfl ?_)
    unfold parse_line
    refine Yields.bind (expect_tag_cons _ _) ?_
    obtain _ | ⟨h4, h7⟩ := h1
    · simp at h0
    obtain _ | ⟨h5, h6⟩ := h7
    · simp at h0
    rename_i t r t' r' ts refs
    simp only [List.length_cons, List.length_append] at hf
    refine Yields.bind (vtn_ok cfg h4 _) ?_
    refine Yields.bind (vtn_ok cfg h5 _) ?_
    refine Yields.bind (vtns_ok hs h6 h3 (by omega) _) ?_
    have e : [r.resolve lo, r'.resolve lo] ++ refs.map (Ref.resolve lo)
      = (r :: r' :: refs).map (Ref.resolve lo) := rfl
    rw [e]
    refine Yields.ite_neg ?_ ?_
    · rw [(verify_iff lo _).2 h2]; simp
    · rw [lineSegments_eq _ (by simp)]
      exact Yields.pure _ _
  | @f ts refs mid rest h0 h1 h2 h3 =>
    refine Yields.ite_neg (by simp) (Yields.ite_neg (by simp) (Yields.ite_pos rfl ?_))
    unfold parse_face
    refine Yields.bind (expect_tag_cons _ _) ?_
    simp only [List.length_cons, List.length_append] at hf
    refine Yields.bind (vtns_ok hs h1 h3 (by omega) _) ?_
    simp only [List.nil_append]
    refine Yields.ite_neg (by simp only [List.length_map]; omega) ?_
    refine Yields.ite_neg ?_ ?_
    · rw [(verify_iff lo _).2 h2]; simp
    · rw [triangulate_eq _ (by simpa using h0)]
      exact Yields.pure _ _
  | _ => simp [Item.isElement] at he

/-! ## One statement -/

/-- What a statement does to the state of the code. -/
def applyItem (lo : Counts) (st : ObjState F) : Item → ObjState F
  | .v x y z w => { st with
      vertices := st.vertices ++ [⟨FloatSem.value x, FloatSem.value y, FloatSem.value z,
        (w.map FloatSem.value).getD FloatSem.one⟩]
      ctr := { st.ctr with max_vertex_index := st.ctr.max_vertex_index + 1 } }
  | .vt u v w => { st with
      texture_vertices := st.texture_vertices ++ [⟨FloatSem.value u,
        (v.map FloatSem.value).getD FloatSem.zero, (w.map FloatSem.value).getD FloatSem.zero⟩]
      ctr := { st.ctr with max_texture_index := st.ctr.max_texture_index + 1 } }
  | .vn x y z => { st with
      normal_vertices := st.normal_vertices ++
        [⟨FloatSem.value x, FloatSem.value y, FloatSem.value z⟩]
      ctr := { st.ctr with max_normal_index := st.ctr.max_normal_index + 1 } }
  | .g names =>
      if st.groups.isEmpty then
        { st with
          groups := st.groups ++ names.map Group.mk
          max_group_index := st.max_group_index + names.length }
      else
        { st with
          group_entry_table := st.group_entry_table ++
            [((st.min_element_group_index, st.max_element_group_index),
              (st.min_group_index, st.max_group_index))]
          groups := st.groups ++ names.map Group.mk
          min_group_index := st.max_group_index
          max_group_index := st.max_group_index + names.length
          min_element_group_index := st.max_element_group_index }
  | .s n =>
      if st.smoothing_groups.isEmpty then
        { st with smoothing_groups := st.smoothing_groups ++ [⟨n⟩], smoothing_group_index := 0 }
      else
        { st with
          smoothing_group_entry_table := st.smoothing_group_entry_table ++
            [((st.min_element_smoothing_group_index, st.max_element_smoothing_group_index),
              st.smoothing_group_index)]
          smoothing_groups := st.smoothing_groups ++ [⟨n⟩]
          smoothing_group_index := st.smoothing_group_index + 1
          min_element_smoothing_group_index := st.max_element_smoothing_group_index }
  | .usemtl name => { st with
      material_name_entry_table :=
        if st.min_element_material_name_index = st.max_element_material_name_index then
          st.material_name_entry_table
        else st.material_name_entry_table ++
          [((st.min_element_material_name_index, st.max_element_material_name_index),
            st.material_name_index)]
      material_names := st.material_names ++ [some name]
      material_name_index :=
        if st.material_names.isEmpty then st.material_name_index else st.material_name_index + 1
      min_element_material_name_index := st.max_element_material_name_index }
  | it =>
      let st := fillDefaults st
      let n := (it.elements lo).length
      { st with
        elements := st.elements ++ it.elements lo
        max_element_group_index := st.max_element_group_index + n
        max_element_smoothing_group_index := st.max_element_smoothing_group_index + n
        max_element_material_name_index := st.max_element_material_name_index + n }

/-- The body of the object loop for a statement starting with `t`. -/
def stmtStep (cfg : Cfg) (fuel0 : Nat) (t : Tok) (st : ObjState F) : OP (List Tok) (ObjState F) :=
  if t = b!"g" then step_g fuel0 st
  else if t = b!"s" then step_s st
  else if t = b!"usemtl" then step_usemtl st
  else if t = b!"v" then step_v st
  else if t = b!"vt" then step_vt st
  else if t = b!"vn" then step_vn st
  else if t = b!"p" ∨ t = b!"l" ∨ t = b!"f" then step_element cfg fuel0 st
  else P.error .InvalidObjectStatement (b!"Unsupported or invalid object statement `" ++ t ++ b!"`.")

theorem bind_error_eq {K α β : Type} (k : K) (m : Bytes) (f : α → P (List Tok) K β) :
    (P.error k m >>= f) = P.error k m := rfl

theorem loop_of_step {cfg : Cfg} {fuel0 fuel : Nat} {t : Tok} {toks : List Tok} {st : ObjState F}
    {o rest} (h1 : t ≠ nl) (h2 : t ≠ b!"o")
    (h : Yields (stmtStep cfg fuel0 t st >>= object_loop cfg fuel0 fuel) (t :: toks) o rest) :
    Yields (object_loop cfg fuel0 (fuel + 1) st) (t :: toks) o rest := by
  rw [object_loop]
  refine Yields.bind (Yields.peek _) ?_
  simp only [List.head?_cons]
  simp only [stmtStep] at h
  repeat' split at h
  all_goals simp_all only [if_true, if_false]
  all_goals exact h

end Verif.Obj
