import Verif.Spec.Mtl
import Verif.Proofs.Yields
import Verif.Proofs.SimMtl
import Verif.Proofs.Text

/-!
# MTL: the code against the specification
-/

namespace Verif.Mtl

open Verif Verif.Spec Verif.Spec.Mtl

variable {F : Type} [FloatSem F]

/-- Follow `if`s whose conditions are decidable by evaluation. -/
macro "ifs" : tactic => `(tactic|
  repeat (first | refine Yields.ite_pos (by decide) ?_ | refine Yields.ite_neg (by decide) ?_))

theorem next_string_cons (t : Tok) (rest : List Tok) : Yields next_string (t :: rest) (.ok t) rest := by
  unfold next_string
  exact Yields.bind (Yields.next_cons _ _) (Yields.pure _ _)

theorem next_string_nil : Yields next_string [] (.err .EndOfFile eofText) [] := by
  unfold next_string
  exact Yields.bind Yields.next_nil (Yields.error _ _ _)

theorem expect_tag_cons (t : Tok) (rest : List Tok) :
    Yields (expect_tag t) (t :: rest) (.ok ()) rest := by
  unfold expect_tag
  exact Yields.bind (Yields.next_cons _ _) (Yields.ite_neg (by simp) (Yields.pure _ _))

theorem f64_ok {t : Tok} (h : isFloat t = true) (rest : List Tok) :
    Yields (parse_f64 : MP _ F) (t :: rest) (.ok (FloatSem.value t)) rest := by
  unfold parse_f64
  refine Yields.bind (next_string_cons _ _) ?_
  simp only [parseF64, h, if_true]
  exact Yields.pure _ _

theorem f64_err {t : Tok} (h : isFloat t = false) (rest : List Tok) :
    Yields (parse_f64 : MP _ F) (t :: rest) (.err .ExpectedFloat (floatText t)) rest := by
  unfold parse_f64
  refine Yields.bind (next_string_cons _ _) ?_
  simp only [parseF64, h, Bool.false_eq_true, if_false]
  exact Yields.error _ _ _

theorem f64_eof : Yields (parse_f64 : MP _ F) [] (.err .EndOfFile eofText) [] := by
  unfold parse_f64
  exact Yields.bind_err next_string_nil

theorem color_ok {r g b : Tok} (hr : isFloat r = true) (hg : isFloat g = true) (hb : isFloat b = true)
    (rest : List Tok) : Yields (parse_color : MP _ (Color F)) (r :: g :: b :: rest)
      (.ok ⟨FloatSem.value r, FloatSem.value g, FloatSem.value b⟩) rest := by
  unfold parse_color
  exact Yields.bind (f64_ok hr _) (Yields.bind (f64_ok hg _) (Yields.bind (f64_ok hb _)
    (Yields.pure _ _)))

theorem color_eof {xs : List Tok} (hl : xs.length < 3) (hx : ∀ x ∈ xs, isFloat x = true) :
    Yields (parse_color : MP _ (Color F)) xs (.err .EndOfFile eofText) [] := by
  unfold parse_color
  match xs, hl, hx with
  | [], _, _ => exact Yields.bind_err f64_eof
  | [x], _, hx => exact Yields.bind (f64_ok (hx x (by simp)) _) (Yields.bind_err f64_eof)
  | [x, y], _, hx =>
    exact Yields.bind (f64_ok (hx x (by simp)) _) (Yields.bind (f64_ok (hx y (by simp)) _)
      (Yields.bind_err f64_eof))

theorem color_bad {xs : List Tok} {t : Tok} (hl : xs.length < 3) (hx : ∀ x ∈ xs, isFloat x = true)
    (ht : isFloat t = false) (rest : List Tok) :
    Yields (parse_color : MP _ (Color F)) (xs ++ t :: rest) (.err .ExpectedFloat (floatText t)) rest := by
  unfold parse_color
  match xs, hl, hx with
  | [], _, _ => exact Yields.bind_err (f64_err ht _)
  | [x], _, hx => exact Yields.bind (f64_ok (hx x (by simp)) _) (Yields.bind_err (f64_err ht _))
  | [x, y], _, hx =>
    exact Yields.bind (f64_ok (hx x (by simp)) _) (Yields.bind (f64_ok (hx y (by simp)) _)
      (Yields.bind_err (f64_err ht _)))

/-- The effect of a statement on the fields. -/
def applyItem (m : Material F) : Item → Material F
  | .color .ambient r g b =>
    { m with color_ambient := ⟨FloatSem.value r, FloatSem.value g, FloatSem.value b⟩ }
  | .color .diffuse r g b =>
    { m with color_diffuse := ⟨FloatSem.value r, FloatSem.value g, FloatSem.value b⟩ }
  | .color .specular r g b =>
    { m with color_specular := ⟨FloatSem.value r, FloatSem.value g, FloatSem.value b⟩ }
  | .color .emissive r g b =>
    { m with color_emissive := ⟨FloatSem.value r, FloatSem.value g, FloatSem.value b⟩ }
  | .num .dissolve x => { m with dissolve := FloatSem.value x }
  | .num .exponent x => { m with specular_exponent := FloatSem.value x }
  | .num .density x => { m with optical_density := some (FloatSem.value x) }
  | .illum model => { m with illumination_model := model }
  | .map .ambient n => { m with map_ambient := some n }
  | .map .diffuse n => { m with map_diffuse := some n }
  | .map .specular n => { m with map_specular := some n }
  | .map .emissive n => { m with map_emissive := some n }
  | .map .exponent n => { m with map_specular_exponent := some n }
  | .map .bump n => { m with map_bump := some n }
  | .map .displacement n => { m with map_displacement := some n }
  | .map .dissolve n => { m with map_dissolve := some n }
  | .map .decal n => { m with map_decal := some n }

theorem last_nil {α β : Type} (f : α → Option β) : last f [] = none := rfl

theorem last_concat {α β : Type} (f : α → Option β) (l : List α) (a : α) :
    last f (l ++ [a]) = (f a).or (last f l) := by
  simp only [last, List.filterMap_append]
  cases h : f a with
  | none => simp [List.filterMap, h]
  | some b => simp [List.filterMap, h]

theorem applyItem_meaning (name : Bytes) (done : List Item) (it : Item) :
    applyItem (matMeaning ⟨name, done⟩ : Material F) it = matMeaning ⟨name, done ++ [it]⟩ := by
  simp only [matMeaning, last_concat]
  cases it with
  | color s r g b => cases s <;> simp [applyItem, Item.color?, Item.num?, Item.illum?, Item.map?]
  | num s x => cases s <;> simp [applyItem, Item.color?, Item.num?, Item.illum?, Item.map?]
  | illum x => simp [applyItem, Item.color?, Item.num?, Item.illum?, Item.map?]
  | map s x => cases s <;> simp [applyItem, Item.color?, Item.num?, Item.illum?, Item.map?]

theorem fold_meaning (name : Bytes) (items : List Item) :
    items.foldl applyItem { (Material.new : Material F) with name := name } =
      matMeaning ⟨name, items⟩ := by
  have key : ∀ items done : List Item, items.foldl applyItem (matMeaning ⟨name, done⟩ : Material F) =
      matMeaning ⟨name, done ++ items⟩ := by
    intro items
    induction items with
    | nil => simp
    | cons it items ih =>
      intro done
      rw [List.foldl_cons, applyItem_meaning, ih]
      simp
  exact key items []

theorem map_ok (tag name : Tok) (rest : List Tok) :
    Yields (parse_map tag) (tag :: name :: rest) (.ok (some name)) rest := by
  unfold parse_map
  refine Yields.bind (Yields.peek _) (Yields.ite_pos rfl ?_)
  refine Yields.bind (expect_tag_cons _ _) ?_
  unfold map_name
  exact Yields.bind (Yields.next_cons _ _) (Yields.pure _ _)

theorem map_eof (tag : Tok) : Yields (parse_map tag) [tag] (.err .EndOfFile mapText) [] := by
  unfold parse_map
  refine Yields.bind (Yields.peek _) (Yields.ite_pos rfl ?_)
  refine Yields.bind (expect_tag_cons _ _) ?_
  unfold map_name
  exact Yields.bind Yields.next_nil (Yields.error _ _ _)

theorem bump_ok {tag : Tok} (h : tag ∈ MapSlot.bump.tags) (name : Tok) (rest : List Tok) :
    Yields parse_map_bump (tag :: name :: rest) (.ok (some name)) rest := by
  unfold parse_map_bump
  refine Yields.bind (Yields.peek _) ?_
  simp only [MapSlot.tags, List.mem_cons, List.not_mem_nil, or_false] at h
  rcases h with rfl | rfl
  · refine Yields.ite_pos rfl ?_
    refine Yields.bind (expect_tag_cons _ _) ?_
    unfold map_name
    exact Yields.bind (Yields.next_cons _ _) (Yields.pure _ _)
  · refine Yields.ite_neg (by simp) (Yields.ite_pos rfl ?_)
    refine Yields.bind (expect_tag_cons _ _) ?_
    unfold map_name
    exact Yields.bind (Yields.next_cons _ _) (Yields.pure _ _)

theorem bump_eof {tag : Tok} (h : tag ∈ MapSlot.bump.tags) :
    Yields parse_map_bump [tag] (.err .EndOfFile mapText) [] := by
  unfold parse_map_bump
  refine Yields.bind (Yields.peek _) ?_
  simp only [MapSlot.tags, List.mem_cons, List.not_mem_nil, or_false] at h
  rcases h with rfl | rfl
  · refine Yields.ite_pos rfl ?_
    refine Yields.bind (expect_tag_cons _ _) ?_
    unfold map_name
    exact Yields.bind Yields.next_nil (Yields.error _ _ _)
  · refine Yields.ite_neg (by simp) (Yields.ite_pos rfl ?_)
    refine Yields.bind (expect_tag_cons _ _) ?_
    unfold map_name
    exact Yields.bind Yields.next_nil (Yields.error _ _ _)

theorem illum_ok {t : Tok} {model : IlluminationModel} (h : parseUsize t = some (illumNumber model))
    (rest : List Tok) :
    Yields parse_illumination_model (b!"illum" :: t :: rest) (.ok model) rest := by
  unfold parse_illumination_model
  refine Yields.bind (expect_tag_cons _ _) ?_
  refine Yields.bind (a := illumNumber model) (mid := rest) ?_ ?_
  · unfold parse_usize
    refine Yields.bind (next_string_cons _ _) ?_
    simp only [h]
    exact Yields.pure _ _
  · cases model <;> exact Yields.pure _ _

theorem illum_bad {t : Tok} (h : parseUsize t = none) (rest : List Tok) :
    Yields parse_illumination_model (b!"illum" :: t :: rest) (.err .ExpectedInteger (intText t)) rest := by
  unfold parse_illumination_model
  refine Yields.bind (expect_tag_cons _ _) ?_
  refine Yields.bind_err ?_
  unfold parse_usize
  refine Yields.bind (next_string_cons _ _) ?_
  simp only [h]
  exact Yields.error _ _ _

theorem illum_unknown {t : Tok} {n : Nat} (h : parseUsize t = some n) (hn : 2 < n) (rest : List Tok) :
    Yields parse_illumination_model (b!"illum" :: t :: rest)
      (.err .UnknownIlluminationModel (illumText n)) rest := by
  unfold parse_illumination_model
  refine Yields.bind (expect_tag_cons _ _) ?_
  refine Yields.bind (a := n) (mid := rest) ?_ ?_
  · unfold parse_usize
    refine Yields.bind (next_string_cons _ _) ?_
    simp only [h]
    exact Yields.pure _ _
  · obtain ⟨n, rfl⟩ : ∃ k, n = k + 3 := ⟨n - 3, by omega⟩
    exact Yields.error _ _ _

theorem illum_eof : Yields parse_illumination_model [b!"illum"] (.err .EndOfFile eofText) [] := by
  unfold parse_illumination_model
  refine Yields.bind (expect_tag_cons _ _) ?_
  refine Yields.bind_err ?_
  unfold parse_usize
  exact Yields.bind_err next_string_nil

/-! ## Statements -/

theorem stmt_head {it : Item} {toks rest : List Tok} (h : Stmt it toks rest) :
    ∃ t tl, toks = t :: tl ∧ t ≠ nl ∧ t ≠ b!"newmtl" := by
  cases h with
  | @color s => cases s <;> exact ⟨_, _, rfl, by decide, by decide⟩
  | @num s => cases s <;> exact ⟨_, _, rfl, by decide, by decide⟩
  | illum => exact ⟨_, _, rfl, by decide, by decide⟩
  | @map s tag _ _ h =>
    refine ⟨_, _, rfl, ?_⟩
    revert tag
    cases s <;> decide

theorem stmtErr_head {toks : List Tok} {k m rest} (h : StmtErr toks k m rest) :
    ∃ t tl, toks = t :: tl ∧ t ≠ nl ∧ t ≠ b!"newmtl" := by
  cases h with
  | @color_eof s => cases s <;> exact ⟨_, _, rfl, by decide, by decide⟩
  | @color_bad s => cases s <;> exact ⟨_, _, rfl, by decide, by decide⟩
  | @num_eof s => cases s <;> exact ⟨_, _, rfl, by decide, by decide⟩
  | @num_bad s => cases s <;> exact ⟨_, _, rfl, by decide, by decide⟩
  | illum_eof => exact ⟨_, _, rfl, by decide, by decide⟩
  | illum_bad => exact ⟨_, _, rfl, by decide, by decide⟩
  | illum_unknown => exact ⟨_, _, rfl, by decide, by decide⟩
  | @map_eof s tag h =>
    refine ⟨_, _, rfl, ?_⟩
    revert tag
    cases s <;> decide
  | unknown _ h1 h2 => exact ⟨_, _, rfl, h1, h2⟩

theorem stmt_length {it : Item} {toks rest : List Tok} (h : Stmt it toks rest) :
    rest.length < toks.length := by
  cases h <;> simp only [List.length_cons] <;> omega

theorem stmt_ok {it : Item} {t : Tok} {toks rest : List Tok} (h : Stmt it (t :: toks) rest)
    (m : Material F) : Yields (material_step t m) (t :: toks) (.ok (applyItem m it)) rest := by
  cases h with
  | @color s _ _ _ _ hr hg hb =>
    cases s <;> unfold material_step <;> simp only [ColorSlot.tag] <;> ifs <;>
    · refine Yields.bind (Yields.bind (expect_tag_cons _ _) (color_ok hr hg hb _)) (Yields.pure _ _)
  | @num s _ _ hx =>
    cases s <;> unfold material_step <;> simp only [NumSlot.tag] <;> ifs <;>
    · refine Yields.bind (Yields.bind (expect_tag_cons _ _) (f64_ok hx _)) (Yields.pure _ _)
  | illum h =>
    unfold material_step; ifs
    exact Yields.bind (illum_ok h _) (Yields.pure _ _)
  | @map s tag name _ h =>
    cases s
    case bump =>
      have h' := h
      simp only [MapSlot.tags, List.mem_cons, List.not_mem_nil, or_false] at h'
      rcases h' with rfl | rfl <;> unfold material_step <;> ifs <;>
        exact Yields.bind (bump_ok h _ _) (Yields.pure _ _)
    all_goals
      simp only [MapSlot.tags, List.mem_cons, List.not_mem_nil, or_false] at h
      subst h
      unfold material_step
      ifs
      exact Yields.bind (map_ok _ _ _) (Yields.pure _ _)

theorem stmt_err {t : Tok} {toks : List Tok} {k msg rest} (h : StmtErr (t :: toks) k msg rest)
    (m : Material F) : Yields (material_step t m) (t :: toks) (.err k msg) rest := by
  cases h with
  | @color_eof s _ hl hx =>
    cases s <;> unfold material_step <;> simp only [ColorSlot.tag] <;> ifs <;>
    · refine Yields.bind_err (Yields.bind (expect_tag_cons _ _) (color_eof hl hx))
  | @color_bad s _ _ _ hl hx ht =>
    cases s <;> unfold material_step <;> simp only [ColorSlot.tag] <;> ifs <;>
    · refine Yields.bind_err (Yields.bind (expect_tag_cons _ _) (color_bad hl hx ht _))
  | @num_eof s =>
    cases s <;> unfold material_step <;> simp only [NumSlot.tag] <;> ifs <;>
    · refine Yields.bind_err (Yields.bind (expect_tag_cons _ _) f64_eof)
  | @num_bad s _ _ ht =>
    cases s <;> unfold material_step <;> simp only [NumSlot.tag] <;> ifs <;>
    · refine Yields.bind_err (Yields.bind (expect_tag_cons _ _) (f64_err ht _))
  | illum_eof => unfold material_step; ifs; exact Yields.bind_err illum_eof
  | illum_bad h => unfold material_step; ifs; exact Yields.bind_err (illum_bad h _)
  | illum_unknown h hn => unfold material_step; ifs; exact Yields.bind_err (illum_unknown h hn _)
  | @map_eof s tag h =>
    cases s
    case bump =>
      have h' := h
      simp only [MapSlot.tags, List.mem_cons, List.not_mem_nil, or_false] at h'
      rcases h' with rfl | rfl <;> unfold material_step <;> ifs <;>
        exact Yields.bind_err (bump_eof h)
    all_goals
      simp only [MapSlot.tags, List.mem_cons, List.not_mem_nil, or_false] at h
      subst h
      unfold material_step
      ifs
      exact Yields.bind_err (map_eof _)
  | unknown h _ _ =>
    simp only [IsKeyword, not_or, not_exists] at h
    obtain ⟨h1, h2, h3, h4⟩ := h
    have e1 := h1 .ambient; have e2 := h1 .diffuse; have e3 := h1 .specular; have e4 := h1 .emissive
    have e5 := h2 .dissolve; have e6 := h2 .exponent; have e7 := h2 .density
    have m1 := h4 .ambient; have m2 := h4 .diffuse; have m3 := h4 .specular; have m4 := h4 .emissive
    have m5 := h4 .exponent; have m6 := h4 .bump; have m7 := h4 .displacement; have m8 := h4 .dissolve
    have m9 := h4 .decal
    simp only [ColorSlot.tag, NumSlot.tag, MapSlot.tags, List.mem_cons, List.not_mem_nil, or_false] at *
    unfold material_step
    simp only [e1, e2, e3, e4, e5, e6, e7, h3, m1, m2, m3, m4, m5, m6, m7, m8, m9, if_false]
    exact Yields.error _ _ _

theorem floats_total (toks : List Tok) :
    (∃ r g b rest, toks = r :: g :: b :: rest ∧ isFloat r = true ∧ isFloat g = true ∧ isFloat b = true) ∨
    (toks.length < 3 ∧ ∀ x ∈ toks, isFloat x = true) ∨
    (∃ xs t rest, toks = xs ++ t :: rest ∧ xs.length < 3 ∧ (∀ x ∈ xs, isFloat x = true) ∧
      isFloat t = false) := by
  match toks with
  | [] => exact .inr (.inl (by simp))
  | x :: toks =>
    cases hx : isFloat x with
    | false => exact .inr (.inr ⟨[], x, toks, by simp [hx]⟩)
    | true =>
    match toks with
    | [] => exact .inr (.inl (by simp [hx]))
    | y :: toks =>
      cases hy : isFloat y with
      | false => exact .inr (.inr ⟨[x], y, toks, by simp [hx, hy]⟩)
      | true =>
      match toks with
      | [] => exact .inr (.inl (by simp [hx, hy]))
      | z :: toks =>
        cases hz : isFloat z with
        | false => exact .inr (.inr ⟨[x, y], z, toks, by simp [hx, hy, hz]⟩)
        | true => exact .inl ⟨x, y, z, toks, rfl, hx, hy, hz⟩

theorem stmt_total {t : Tok} (h1 : t ≠ nl) (h2 : t ≠ b!"newmtl") (tl : List Tok) :
    (∃ it rest, Stmt it (t :: tl) rest) ∨ (∃ k m rest, StmtErr (t :: tl) k m rest) := by
  by_cases hk : IsKeyword t
  · rcases hk with ⟨s, rfl⟩ | ⟨s, rfl⟩ | rfl | ⟨s, hs⟩
    · rcases floats_total tl with ⟨r, g, b, rest, rfl, hr, hg, hb⟩ | ⟨hl, hx⟩ |
        ⟨xs, t, rest, rfl, hl, hx, ht⟩
      · exact .inl ⟨_, _, .color hr hg hb⟩
      · exact .inr ⟨_, _, _, .color_eof hl hx⟩
      · exact .inr ⟨_, _, _, .color_bad hl hx ht⟩
    · cases tl with
      | nil => exact .inr ⟨_, _, _, .num_eof⟩
      | cons x tl =>
        cases hx : isFloat x with
        | true => exact .inl ⟨_, _, .num hx⟩
        | false => exact .inr ⟨_, _, _, .num_bad hx⟩
    · cases tl with
      | nil => exact .inr ⟨_, _, _, .illum_eof⟩
      | cons x tl =>
        cases hx : parseUsize x with
        | none => exact .inr ⟨_, _, _, .illum_bad hx⟩
        | some n =>
          match n with
          | 0 => exact .inl ⟨_, _, .illum (model := .Ambient) hx⟩
          | 1 => exact .inl ⟨_, _, .illum (model := .AmbientDiffuse) hx⟩
          | 2 => exact .inl ⟨_, _, .illum (model := .AmbientDiffuseSpecular) hx⟩
          | n + 3 => exact .inr ⟨_, _, _, .illum_unknown hx (by omega)⟩
    · cases tl with
      | nil => exact .inr ⟨_, _, _, .map_eof hs⟩
      | cons x tl => exact .inl ⟨_, _, .map hs⟩
  · exact .inr ⟨_, _, _, .unknown hk h1 h2⟩

/-! ## Materials -/

/-- Drop leading newlines. -/
abbrev trim (toks : List Tok) : List Tok := toks.dropWhile (· = nl)

theorem trim_nl (toks : List Tok) : trim (nl :: toks) = trim toks := by simp [trim]

theorem trim_cons {t : Tok} (h : t ≠ nl) (toks : List Tok) : trim (t :: toks) = t :: toks := by
  simp [trim, h]

theorem trim_length_le (toks : List Tok) : (trim toks).length ≤ toks.length :=
  length_dropWhile_le _ _

theorem bodyEnd_trim {rest : List Tok} (h : BodyEnd rest) : trim rest = rest := by
  rcases h with rfl | h
  · rfl
  · cases rest with
    | nil => rfl
    | cons t rest =>
      simp only [List.head?_cons, Option.some.injEq] at h
      subst h
      exact trim_cons (by decide) _

theorem body_ok {items : List Item} {toks rest : List Tok} (h : Body items toks rest) {fuel0 : Nat}
    (hf0 : toks.length < fuel0) {fuel : Nat} (hf : (trim toks).length < fuel) (m : Material F) :
    Yields (material_loop fuel0 fuel m) (trim toks) (.ok (items.foldl applyItem m)) rest := by
  induction h generalizing fuel m with
  | done h =>
    rw [bodyEnd_trim h] at hf ⊢
    obtain ⟨fuel, rfl⟩ : ∃ k, fuel = k + 1 := ⟨fuel - 1, by omega⟩
    rw [material_loop]
    refine Yields.bind (Yields.peek _) ?_
    rcases h with rfl | h
    · exact Yields.pure _ _
    · rw [h]
      exact Yields.ite_pos rfl (Yields.pure _ _)
  | blank _ ih =>
    rw [trim_nl] at hf ⊢
    simp only [List.length_cons] at hf0
    exact ih (by omega) hf m
  | @stmt it items toks mid rest h1 h2 ih =>
    obtain ⟨t, tl, rfl, ht1, ht2⟩ := stmt_head h1
    have hlt := stmt_length h1
    have := trim_length_le mid
    rw [trim_cons ht1] at hf ⊢
    obtain ⟨fuel, rfl⟩ : ∃ k, fuel = k + 1 := ⟨fuel - 1, by omega⟩
    rw [material_loop]
    refine Yields.bind (Yields.peek _) ?_
    refine Yields.ite_neg ht2 ?_
    refine Yields.bind (stmt_ok h1 m) ?_
    refine Yields.bind (Yields.skip_zero _ (by omega)) ?_
    exact ih (by omega) (by omega) _

theorem body_err {toks : List Tok} {k msg rest} (h : BodyErr toks k msg rest) {fuel0 : Nat}
    (hf0 : toks.length < fuel0) {fuel : Nat} (hf : (trim toks).length < fuel) (m : Material F) :
    Yields (material_loop fuel0 fuel m) (trim toks) (.err k msg) rest := by
  induction h generalizing fuel m with
  | here h =>
    obtain ⟨t, tl, rfl, ht1, ht2⟩ := stmtErr_head h
    rw [trim_cons ht1] at hf ⊢
    obtain ⟨fuel, rfl⟩ : ∃ k, fuel = k + 1 := ⟨fuel - 1, by omega⟩
    rw [material_loop]
    refine Yields.bind (Yields.peek _) ?_
    refine Yields.ite_neg ht2 ?_
    exact Yields.bind_err (stmt_err h m)
  | blank _ ih =>
    rw [trim_nl] at hf ⊢
    simp only [List.length_cons] at hf0
    exact ih (by omega) hf m
  | @later it toks mid k m' rest h1 h2 ih =>
    obtain ⟨t, tl, rfl, ht1, ht2⟩ := stmt_head h1
    have hlt := stmt_length h1
    have := trim_length_le mid
    rw [trim_cons ht1] at hf ⊢
    obtain ⟨fuel, rfl⟩ : ∃ k, fuel = k + 1 := ⟨fuel - 1, by omega⟩
    rw [material_loop]
    refine Yields.bind (Yields.peek _) ?_
    refine Yields.ite_neg ht2 ?_
    refine Yields.bind (stmt_ok h1 m) ?_
    refine Yields.bind (Yields.skip_zero _ (by omega)) ?_
    exact ih (by omega) (by omega) _

theorem body_total (toks : List Tok) :
    (∃ items rest, Body items toks rest) ∨ (∃ k m rest, BodyErr toks k m rest) := by
  induction hn : toks.length using Nat.strongRecOn generalizing toks with
  | ind n ih =>
    cases toks with
    | nil => exact .inl ⟨_, _, .done (.inl rfl)⟩
    | cons t tl =>
      simp only [List.length_cons] at hn
      by_cases ht1 : t = nl
      · subst ht1
        rcases ih tl.length (by omega) tl rfl with ⟨_, _, h⟩ | ⟨_, _, _, h⟩
        · exact .inl ⟨_, _, .blank h⟩
        · exact .inr ⟨_, _, _, .blank h⟩
      · by_cases ht2 : t = b!"newmtl"
        · subst ht2; exact .inl ⟨_, _, .done (.inr rfl)⟩
        · rcases stmt_total ht1 ht2 tl with ⟨it, rest, h⟩ | ⟨_, _, _, h⟩
          · have hlt := stmt_length h
            simp only [List.length_cons] at hlt
            rcases ih rest.length (by omega) rest rfl with ⟨_, _, h'⟩ | ⟨_, _, _, h'⟩
            · exact .inl ⟨_, _, .stmt h h'⟩
            · exact .inr ⟨_, _, _, .later h h'⟩
          · exact .inr ⟨_, _, _, .here h⟩

theorem body_length_le {items toks rest} (h : Body items toks rest) : rest.length ≤ toks.length := by
  induction h with
  | done h => exact Nat.le_refl _
  | blank _ ih => simp only [List.length_cons]; omega
  | stmt h _ ih => have := stmt_length h; omega

theorem body_end {items toks rest} (h : Body items toks rest) : BodyEnd rest := by
  induction h with
  | done h => exact h
  | blank _ ih => exact ih
  | stmt _ _ ih => exact ih

theorem newmtl_ok (name : Tok) (rest : List Tok) :
    Yields parse_newmtl (b!"newmtl" :: name :: rest) (.ok name) rest := by
  unfold parse_newmtl
  refine Yields.bind (Yields.next_cons _ _) (Yields.ite_pos rfl ?_)
  exact Yields.bind (Yields.next_cons _ _) (Yields.pure _ _)

theorem material_ok {name : Tok} {items toks rest} (h : Body items toks rest) {fuel : Nat}
    (hf : toks.length < fuel) :
    Yields (parse_material fuel : MP _ (Material F)) (b!"newmtl" :: name :: toks)
      (.ok (matMeaning ⟨name, items⟩)) rest := by
  have := trim_length_le toks
  unfold parse_material
  refine Yields.bind (newmtl_ok _ _) ?_
  refine Yields.bind (Yields.skip_zero _ hf) ?_
  rw [← fold_meaning]
  exact body_ok h hf (by omega) _

theorem mats_ok {mats toks} (h : Mats mats toks) {fuel0 : Nat} (hf0 : toks.length < fuel0) {fuel : Nat}
    (hf : toks.length < fuel) (acc : List (Material F)) :
    Yields (mtlset_loop fuel0 fuel acc) toks (.ok (acc ++ mats.map matMeaning)) [] := by
  induction h generalizing fuel acc with
  | done =>
    obtain ⟨fuel, rfl⟩ : ∃ k, fuel = k + 1 := ⟨fuel - 1, by omega⟩
    rw [mtlset_loop]
    refine Yields.bind (Yields.peek _) (Yields.ite_neg (by simp) ?_)
    simpa using Yields.pure acc _
  | @mat name items mats toks rest hb _ ih =>
    have := body_length_le hb
    simp only [List.length_cons] at hf hf0
    obtain ⟨fuel, rfl⟩ : ∃ k, fuel = k + 1 := ⟨fuel - 1, by omega⟩
    rw [mtlset_loop]
    refine Yields.bind (Yields.peek _) (Yields.ite_pos rfl ?_)
    refine Yields.bind (material_ok hb (by omega)) ?_
    have := ih (by omega) (fuel := fuel) (by omega) (acc ++ [matMeaning ⟨name, items⟩])
    simpa using this

theorem mats_err {toks k m rest} (h : MatsErr toks k m rest) {fuel0 : Nat} (hf0 : toks.length < fuel0)
    {fuel : Nat} (hf : toks.length < fuel) (acc : List (Material F)) :
    Yields (mtlset_loop fuel0 fuel acc) toks (.err k m) rest := by
  induction h generalizing fuel acc with
  | no_name =>
    obtain ⟨fuel, rfl⟩ : ∃ k, fuel = k + 1 := ⟨fuel - 1, by omega⟩
    rw [mtlset_loop]
    refine Yields.bind (Yields.peek _) (Yields.ite_pos rfl ?_)
    refine Yields.bind_err ?_
    unfold parse_material
    refine Yields.bind_err ?_
    unfold parse_newmtl
    refine Yields.bind (Yields.next_cons _ _) (Yields.ite_pos rfl ?_)
    exact Yields.bind Yields.next_nil (Yields.error _ _ _)
  | @body name toks k m rest hb =>
    have := trim_length_le toks
    simp only [List.length_cons] at hf hf0
    obtain ⟨fuel, rfl⟩ : ∃ k, fuel = k + 1 := ⟨fuel - 1, by omega⟩
    rw [mtlset_loop]
    refine Yields.bind (Yields.peek _) (Yields.ite_pos rfl ?_)
    refine Yields.bind_err ?_
    unfold parse_material
    refine Yields.bind (newmtl_ok _ _) ?_
    refine Yields.bind (Yields.skip_zero _ (by omega)) ?_
    exact body_err hb (by omega) (by omega) _
  | @later name items toks mid k m rest hb _ ih =>
    have := body_length_le hb
    simp only [List.length_cons] at hf hf0
    obtain ⟨fuel, rfl⟩ : ∃ k, fuel = k + 1 := ⟨fuel - 1, by omega⟩
    rw [mtlset_loop]
    refine Yields.bind (Yields.peek _) (Yields.ite_pos rfl ?_)
    refine Yields.bind (material_ok hb (by omega)) ?_
    exact ih (by omega) (by omega) _

theorem mats_total {toks : List Tok} (ht : BodyEnd toks) :
    (∃ mats, Mats mats toks) ∨ (∃ k m rest, MatsErr toks k m rest) := by
  induction hn : toks.length using Nat.strongRecOn generalizing toks with
  | ind n ih =>
    match toks, ht with
    | [], _ => exact .inl ⟨_, .done⟩
    | [t], ht =>
      simp [BodyEnd] at ht; subst ht
      exact .inr ⟨_, _, _, .no_name⟩
    | t :: name :: toks, ht =>
      simp [BodyEnd] at ht; subst ht
      simp only [List.length_cons] at hn
      rcases body_total toks with ⟨items, rest, hb⟩ | ⟨_, _, _, hb⟩
      · have := body_length_le hb
        rcases ih rest.length (by omega) (body_end hb) rfl with ⟨_, h⟩ | ⟨_, _, _, h⟩
        · exact .inl ⟨_, .mat hb h⟩
        · exact .inr ⟨_, _, _, .later hb h⟩
      · exact .inr ⟨_, _, _, .body hb⟩

/-! ## Files -/

theorem mats_head {mats toks} (h : Mats mats toks) : trim toks = toks := by
  cases h with
  | done => rfl
  | mat _ _ => exact trim_cons (by decide) _

theorem matsErr_head {toks k m rest} (h : MatsErr toks k m rest) : trim toks = toks := by
  cases h <;> exact trim_cons (by decide) _

theorem file_ok_trim {toks mats} (h : FileOk toks mats) : Mats mats (trim toks) := by
  induction h with
  | blank _ ih => rw [trim_nl]; exact ih
  | mats h => rw [mats_head h]; exact h

theorem file_ok {toks mats} (h : FileOk toks mats) {fuel : Nat} (hf : toks.length < fuel) :
    Yields (parse_mtlset fuel : MP _ (MaterialSet F)) toks (.ok (meaning mats)) [] := by
  have := trim_length_le toks
  unfold parse_mtlset
  refine Yields.bind (Yields.skip_zero _ hf) ?_
  have h1 := mats_ok (F := F) (file_ok_trim h) (fuel0 := fuel) (by omega) (fuel := fuel) (by omega) []
  refine Yields.bind h1 ?_
  exact Yields.bind (Yields.peek _) (Yields.pure _ _)

theorem file_err {toks k m rest} (h : FileErr toks k m rest) {fuel : Nat} (hf : toks.length < fuel) :
    Yields (parse_mtlset fuel : MP _ (MaterialSet F)) toks (.err k m) rest := by
  have := trim_length_le toks
  unfold parse_mtlset
  refine Yields.bind (Yields.skip_zero _ hf) ?_
  show Yields _ (trim toks) _ _
  have hf' : (trim toks).length < fuel := by omega
  clear hf this
  induction h with
  | blank _ ih =>
    rw [trim_nl] at hf' ⊢
    exact ih hf'
  | @trailing t toks h1 h2 =>
    rw [trim_cons h1] at hf' ⊢
    obtain ⟨fuel, rfl⟩ : ∃ k, fuel = k + 1 := ⟨fuel - 1, by omega⟩
    refine Yields.bind (a := []) (mid := t :: toks) ?_ ?_
    · rw [mtlset_loop]
      exact Yields.bind (Yields.peek _) (Yields.ite_neg (by simpa using h2) (Yields.pure _ _))
    · exact Yields.bind (Yields.peek _) (Yields.error _ _ _)
  | mats h =>
    rw [matsErr_head h] at hf' ⊢
    exact Yields.bind_err (mats_err h hf' hf' _)

theorem file_total (toks : List Tok) :
    (∃ mats, FileOk toks mats) ∨ (∃ k m rest, FileErr toks k m rest) := by
  induction toks with
  | nil => exact .inl ⟨_, .mats .done⟩
  | cons t tl ih =>
    by_cases h1 : t = nl
    · subst h1
      rcases ih with ⟨_, h⟩ | ⟨_, _, _, h⟩
      · exact .inl ⟨_, .blank h⟩
      · exact .inr ⟨_, _, _, .blank h⟩
    · by_cases h2 : t = b!"newmtl"
      · subst h2
        rcases mats_total (toks := b!"newmtl" :: tl) (.inr rfl) with ⟨_, h⟩ | ⟨_, _, _, h⟩
        · exact .inl ⟨_, .mats h⟩
        · exact .inr ⟨_, _, _, .mats h⟩
      · exact .inr ⟨_, _, _, .trailing h1 h2⟩

/-! ## `mtl::parse` on byte strings -/

/-- A run on the token list is a run of the parser. -/
theorem parse_of_yields {input : Bytes} {o : Res ErrorKind (MaterialSet F)} {rest : List Tok}
    (h : Yields (parse_mtlset (input.length + 1)) (tokens input) o rest) :
    (parse input : Out ErrorKind (MaterialSet F)) = o.at (1 + nls (tokens input) - nls rest) := by
  obtain ⟨line, e1, e2⟩ := h.run 1
  have hs := (sim_parse_mtlset (F := F) (d := 0) holds_bisim.symm
    (Nat.le_refl (input.length + 1))).run ⟨1, tokens input⟩
    ⟨1, PeekableLexer.new (Lexer.new input)⟩ ⟨rfl, holds_new input⟩
  have hl : line = 1 + nls (tokens input) - nls rest := by omega
  rw [e2] at hs
  have h1 := hs.1
  show (parse_mtlset (input.length + 1) _).1 = _
  have e : (Parser.new input) = (⟨1, PeekableLexer.new (Lexer.new input)⟩ : PState PeekableLexer) := rfl
  rw [← hl]
  rw [e]
  generalize (parse_mtlset (input.length + 1)
    (⟨1, PeekableLexer.new (Lexer.new input)⟩ : PState PeekableLexer) :
      Out ErrorKind (MaterialSet F) × _).1 = q at h1 ⊢
  cases o <;> cases q <;> simp_all [OutRel, Res.at]

theorem parse_ok_of {input : Bytes} {mats : List MatAst} (h : FileOk (tokens input) mats) :
    (parse input : Out ErrorKind (MaterialSet F)) = .ok (meaning mats) := by
  have := length_tokens_le input
  exact parse_of_yields (file_ok h (by omega))

theorem parse_err_of {input : Bytes} {k m rest} (h : FileErr (tokens input) k m rest) :
    (parse input : Out ErrorKind (MaterialSet F)) =
      .err ⟨1 + nls (tokens input) - nls rest, k, m⟩ := by
  have := length_tokens_le input
  exact parse_of_yields (file_err h (by omega))

theorem parse_ok_iff {input : Bytes} {r : MaterialSet F} :
    parse input = .ok r ↔ ∃ mats, FileOk (tokens input) mats ∧ r = meaning mats := by
  constructor
  · intro h
    rcases file_total (tokens input) with ⟨mats, hf⟩ | ⟨k, m, rest, hf⟩
    · rw [parse_ok_of hf] at h
      exact ⟨mats, hf, by simpa using h.symm⟩
    · rw [parse_err_of hf] at h; cases h
  · rintro ⟨file, hf, rfl⟩
    exact parse_ok_of hf

theorem parse_err_iff {input : Bytes} {e : ParseError ErrorKind} :
    (parse input : Out ErrorKind (MaterialSet F)) = .err e ↔
      ∃ rest, FileErr (tokens input) e.kind e.message rest ∧
        e.line_number = 1 + nls (tokens input) - nls rest := by
  constructor
  · intro h
    rcases file_total (tokens input) with ⟨mats, hf⟩ | ⟨k, m, rest, hf⟩
    · rw [parse_ok_of hf] at h; cases h
    · rw [parse_err_of hf] at h
      simp only [Out.err.injEq] at h
      subst h
      exact ⟨rest, hf, rfl⟩
  · rintro ⟨rest, hf, hl⟩
    rw [parse_err_of hf, ← hl]

theorem parse_total (input : Bytes) :
    (∃ r, (parse input : Out ErrorKind (MaterialSet F)) = .ok r) ∨
    (∃ e, (parse input : Out ErrorKind (MaterialSet F)) = .err e) := by
  rcases file_total (tokens input) with ⟨mats, hf⟩ | ⟨k, m, rest, hf⟩
  · exact .inl ⟨_, parse_ok_of hf⟩
  · exact .inr ⟨_, parse_err_of hf⟩

end Verif.Mtl
