import Verif.Props.Grow
import Verif.Props.Size
import Verif.Proofs.Swap

/-!
# Property C93: nothing is read that the text does not name

Every table entry, object, library and attribute in a result goes back to a word of the text that
announces it. The theorems compare the result with how often these words occur among the tokens.
-/

namespace Verif.Spec.Obj

open Verif Verif.Obj List

theorem endLine_split {toks rest : List Tok} (h : EndLine toks rest) : ∃ pre, toks = pre ++ rest := by
  rcases h with rfl | ⟨rfl, rfl⟩
  · exact ⟨[nl], rfl⟩
  · exact ⟨[], rfl⟩

theorem stop_split {cfg lo hi} {toks rest : List Tok} (h : Stop cfg lo hi toks rest) :
    ∃ pre, toks = pre ++ rest := by
  rcases h with ⟨t, -, -, rfl, -⟩ | ⟨rfl, rfl⟩
  · exact ⟨[t], rfl⟩
  · exact ⟨[], rfl⟩

theorem stmt_word {cfg lo hi it toks rest} (h : Stmt cfg lo hi it toks rest) :
    ∃ pre, toks = it.word :: (pre ++ rest) := by
  cases h with
  | @v3 x y z => exact ⟨[x, y, z], rfl⟩
  | @v4 x y z w => exact ⟨[x, y, z, w], rfl⟩
  | @vt1 u => exact ⟨[u], rfl⟩
  | @vt2 u v => exact ⟨[u, v], rfl⟩
  | @vt3 u v w => exact ⟨[u, v, w], rfl⟩
  | @vn x y z => exact ⟨[x, y, z], rfl⟩
  | g _ h => obtain ⟨pre, rfl⟩ := endLine_split h; exact ⟨_ ++ pre, by rw [List.append_assoc]; rfl⟩
  | @s t => exact ⟨[t], rfl⟩
  | @usemtl name => exact ⟨[name], rfl⟩
  | p _ _ h => obtain ⟨pre, rfl⟩ := endLine_split h; exact ⟨_ ++ pre, by rw [List.append_assoc]; rfl⟩
  | l _ _ _ h => obtain ⟨pre, rfl⟩ := stop_split h; exact ⟨_ ++ pre, by rw [List.append_assoc]; rfl⟩
  | f _ _ _ h => obtain ⟨pre, rfl⟩ := stop_split h; exact ⟨_ ++ pre, by rw [List.append_assoc]; rfl⟩

theorem body_words {cfg lo hi items toks rest} (h : Body cfg lo hi items toks rest) :
    ∃ pre, toks = pre ++ rest ∧ items.map Item.word <+ pre := by
  induction h with
  | done => exact ⟨[], rfl, .slnil⟩
  | blank _ ih =>
    obtain ⟨pre, rfl, h⟩ := ih
    exact ⟨nl :: pre, rfl, h.cons _⟩
  | stmt h _ ih =>
    obtain ⟨pre, rfl, h'⟩ := ih
    obtain ⟨p, rfl⟩ := stmt_word h
    exact ⟨_ :: (p ++ pre), by simp, (h'.trans (List.sublist_append_right _ _)).cons_cons _⟩

/-- The words in front of an object: `o`, if it has a name. -/
def ObjAst.words (o : ObjAst) : List Tok :=
  (if o.name = [] then [] else [b!"o"]) ++ o.items.map Item.word

theorem objects_words {cfg lo objs toks} (h : Objects cfg lo objs toks) :
    objs.flatMap ObjAst.words <+ toks := by
  induction h with
  | done => exact .slnil
  | @obj lo name items objs toks mid rest h1 h2 _ _ ih =>
    obtain ⟨pre, hmid, hp⟩ := body_words h2
    have hb : items.map Item.word ++ objs.flatMap ObjAst.words <+ mid := hmid ▸ hp.append ih
    rw [List.flatMap_cons]
    simp only [ObjAst.words]
    rw [List.append_assoc]
    cases h1 with
    | implicit => simpa using hb
    | named =>
      refine List.Sublist.trans (List.Sublist.append (l₂ := [b!"o"]) ?_ hb) ?_
      · split
        · exact List.nil_sublist _
        · exact List.Sublist.refl _
      · exact (((List.Sublist.refl _).cons _).cons _).cons_cons _

theorem body_end {cfg lo hi items toks rest} (h : Body cfg lo hi items toks rest) :
    rest = [] ∨ rest.head? = some b!"o" := by
  induction h with
  | done h => exact h
  | blank _ ih => exact ih
  | stmt _ _ ih => exact ih

/-- All objects but the first begin with `o`. -/
theorem objects_o {cfg lo objs toks} (h : Objects cfg lo objs toks) :
    objs.length ≤ toks.count b!"o" + (if toks.head? = some b!"o" then 0 else 1) := by
  induction h with
  | done => simp
  | @obj lo name items objs toks mid rest h1 h2 _ h4 ih =>
    obtain ⟨pre, hmid, -⟩ := body_words h2
    have hobjs : objs.length ≤ rest.count b!"o" := by
      rcases body_end h2 with rfl | he
      · cases h4 with
        | done => simp
        | obj h => cases h
      · simpa [he] using ih
    cases h1 with
    | implicit hne =>
      simp only [List.length_cons, List.head?_cons, Option.some.injEq, hne, if_false]
      rw [hmid, List.count_append]
      omega
    | named =>
      subst hmid
      simp only [List.length_cons, List.head?_cons, if_true, List.count_cons, List.count_append, beq_self_eq_true]
      omega

theorem libs_word {toks libs rest} (h : Libs toks libs rest) :
    (∃ pre, toks = pre ++ rest) ∧ (libs ≠ [] → b!"mtllib" ∈ toks) := by
  induction h with
  | done => exact ⟨⟨[], rfl⟩, by simp⟩
  | blank _ ih =>
    obtain ⟨⟨pre, rfl⟩, h⟩ := ih
    exact ⟨⟨nl :: pre, rfl⟩, fun hl => List.mem_cons_of_mem _ (h hl)⟩
  | @line names _ _ _ _ _ he _ ih =>
    obtain ⟨⟨pre, rfl⟩, -⟩ := ih
    obtain ⟨p, rfl⟩ := endLine_split he
    exact ⟨⟨b!"mtllib" :: (names ++ (p ++ pre)), by simp only [List.append_assoc, List.cons_append]⟩,
      fun _ => List.mem_cons_self⟩

theorem file_words {cfg toks file} (h : FileOk cfg toks file) :
    file.objects.flatMap ObjAst.words <+ toks := by
  obtain ⟨rest, hl, ho⟩ := h
  obtain ⟨⟨pre, rfl⟩, -⟩ := libs_word hl
  exact (objects_words ho).trans (List.sublist_append_right _ _)

section
variable {F : Type} [FloatSem F]

/-- Entries of an object under construction, compared with the words so far. -/
structure Acc.Within (a : Acc F) (ws : List Tok) : Prop where
  v : a.vertices.length = ws.count b!"v"
  vt : a.textures.length = ws.count b!"vt"
  vn : a.normals.length = ws.count b!"vn"
  s : a.smoothing.length ≤ ws.count b!"s" + 1
  g : b!"g" ∉ ws → a.groups = [] ∨ a.groups = [⟨b!"default"⟩]
  el : b!"p" ∉ ws → b!"l" ∉ ws → b!"f" ∉ ws → a.elements = []
  mat : a.geometries.countP (·.material_name.isSome) + a.material.toList.length ≤ ws.count b!"usemtl"
  geo : a.geometries.length ≤ ws.count b!"usemtl"

omit [FloatSem F] in
theorem within_defaults {a : Acc F} {ws : List Tok} (h : a.Within ws) : a.defaults.Within ws := by
  obtain ⟨h1, h2, h3, h4, h5, h6, h7, h8⟩ := h
  by_cases e1 : a.groups = [] <;> by_cases e2 : a.smoothing = [] <;>
    constructor <;> simp_all [Acc.defaults]

theorem within_step {a : Acc F} {ws : List Tok} (h : a.Within ws) (lo : Counts) (it : Item) :
    (a.step lo it).Within (ws ++ [it.word]) := by
  have hel : ∀ es w, w ∈ [b!"p", b!"l", b!"f"] → (a.defaults.addElements es).Within (ws ++ [w]) := by
    intro es w hw
    obtain ⟨h1, h2, h3, h4, h5, h6, h7, h8⟩ := within_defaults h
    simp only [List.mem_cons, List.not_mem_nil, or_false] at hw
    rcases hw with rfl | rfl | rfl <;> constructor <;> simp_all [Acc.addElements]
  cases it with
  | p => exact hel _ _ (by simp [Item.word])
  | l => exact hel _ _ (by simp [Item.word])
  | f => exact hel _ _ (by simp [Item.word])
  | usemtl name =>
    obtain ⟨h1, h2, h3, h4, h5, h6, h7, h8⟩ := h
    simp only [Acc.step, Item.word]
    split
    · constructor <;> simp_all
      all_goals omega
    · cases e : a.material <;> constructor <;> simp_all
  | _ =>
    obtain ⟨h1, h2, h3, h4, h5, h6, h7, h8⟩ := h
    constructor <;> simp_all [Acc.step, Item.word]

theorem within_fold (lo : Counts) (items : List Item) {a : Acc F} {ws : List Tok} (h : a.Within ws) :
    (items.foldl (Acc.step lo) a).Within (ws ++ items.map Item.word) := by
  induction items generalizing a ws with
  | nil => simpa using h
  | cons it items ih =>
    have := ih (within_step h lo it)
    rwa [List.append_assoc] at this

theorem within_items (lo : Counts) (items : List Item) :
    (items.foldl (Acc.step lo) ({} : Acc F)).Within (items.map Item.word) := by
  have h : ({} : Acc F).Within [] := by constructor <;> simp
  simpa using within_fold lo items h

/-- Tables of all objects together, compared with all words. -/
theorem objects_within {α : Type} (f : Object F → List α) (w : Tok) (hw : w ≠ b!"o") (k : Nat)
    (hf : ∀ lo name items, (f (objMeaning lo ⟨name, items⟩)).length ≤ (items.map Item.word).count w + k)
    (objs : List ObjAst) (lo : Counts) :
    ((objectsMeaning lo objs).flatMap f).length ≤
      (objs.flatMap ObjAst.words).count w + k * objs.length := by
  induction objs generalizing lo with
  | nil => simp [objectsMeaning]
  | cons o objs ih =>
    have h1 : (f (objMeaning lo o)).length ≤ _ := hf lo o.name o.items
    have h2 := ih (lo + countsOf o.items)
    have h3 : (ObjAst.words o).count w = (o.items.map Item.word).count w := by
      unfold ObjAst.words
      rw [List.count_append]
      split
      · simp
      · simp [hw.symm]
    simp only [objectsMeaning, List.flatMap_cons, List.length_append, List.count_append, h3,
      List.length_cons, Nat.mul_add]
    omega

theorem mem_of_objects {objs : List ObjAst} {lo : Counts} {o : Object F}
    (h : o ∈ objectsMeaning lo objs) : ∃ lo', ∃ ast ∈ objs, o = objMeaning lo' ast := by
  induction objs generalizing lo with
  | nil => cases h
  | cons a objs ih =>
    rcases List.mem_cons.mp h with rfl | h
    · exact ⟨lo, a, by simp, rfl⟩
    · obtain ⟨lo', ast, hm, rfl⟩ := ih h
      exact ⟨lo', ast, by simp [hm], rfl⟩

end

end Verif.Spec.Obj

namespace Verif.Props

open Verif Verif.Spec

variable {F : Type} [FloatSem F] {cfg : Obj.Cfg} {input : Bytes}

section
open Verif.Obj Verif.Spec.Obj

/-- **C93** There are at most as many vertices as words `v`, texture vertices as words `vt`, normals
as words `vn`, geometries with a material as words `usemtl`. -/
theorem C93_tables (hlen : input.length < 2 ^ 63) {r : ObjectSet F} (h : Obj.parse cfg input = .ok r) :
    (r.objects.flatMap (·.vertex_set)).length ≤ (tokens input).count b!"v" ∧
    (r.objects.flatMap (·.texture_vertex_set)).length ≤ (tokens input).count b!"vt" ∧
    (r.objects.flatMap (·.normal_vertex_set)).length ≤ (tokens input).count b!"vn" ∧
    (r.objects.flatMap (·.geometry_set.filter (·.material_name.isSome))).length ≤
      (tokens input).count b!"usemtl" := by
  obtain ⟨file, hf, rfl⟩ := (Verif.Obj.parse_ok_iff hlen).mp h
  have hs := file_words hf
  have hg : ∀ {α : Type} (f : Object F → List α) (w : Tok), w ≠ b!"o" →
      (∀ lo name items, (f (objMeaning lo ⟨name, items⟩)).length ≤ (items.map Item.word).count w) →
      ((meaning file : ObjectSet F).objects.flatMap f).length ≤ (tokens input).count w := by
    intro α f w hw hf
    have := objects_within f w hw 0 (by simpa using hf) file.objects {}
    have := hs.count_le w
    simp only [meaning]
    omega
  refine ⟨hg _ _ (by decide) ?_, hg _ _ (by decide) ?_, hg _ _ (by decide) ?_, hg _ _ (by decide) ?_⟩ <;>
    intro lo name items
  · exact (within_items lo items).v.le
  · exact (within_items lo items).vt.le
  · exact (within_items lo items).vn.le
  · have := (within_items (F := F) lo items).mat
    refine le_trans ?_ this
    simp only [objMeaning, List.filter_append, List.length_append, ← List.countP_eq_length_filter]
    cases (items.foldl (Acc.step lo) ({} : Acc F)).material <;> simp

/-- **C93** Every object has at most one smoothing group and one geometry that no word `s` or
`usemtl` stands for. -/
theorem C93_defaults (hlen : input.length < 2 ^ 63) {r : ObjectSet F} (h : Obj.parse cfg input = .ok r) :
    (r.objects.flatMap (·.smoothing_group_set)).length ≤ (tokens input).count b!"s" + r.objects.length ∧
    (r.objects.flatMap (·.geometry_set)).length ≤ (tokens input).count b!"usemtl" + r.objects.length := by
  obtain ⟨file, hf, rfl⟩ := (Verif.Obj.parse_ok_iff hlen).mp h
  have hs := file_words hf
  have hg : ∀ {α : Type} (f : Object F → List α) (w : Tok), w ≠ b!"o" →
      (∀ lo name items, (f (objMeaning lo ⟨name, items⟩)).length ≤ (items.map Item.word).count w + 1) →
      ((meaning file : ObjectSet F).objects.flatMap f).length ≤
        (tokens input).count w + (meaning file : ObjectSet F).objects.length := by
    intro α f w hw hf
    have := objects_within f w hw 1 hf file.objects {}
    have := hs.count_le w
    simp only [meaning, objectsMeaning_length]
    omega
  refine ⟨hg _ _ (by decide) ?_, hg _ _ (by decide) ?_⟩ <;> intro lo name items
  · exact (within_items lo items).s
  · have := (within_items (F := F) lo items).geo
    simpa [objMeaning] using this

/-- **C93** Elements need a word `p`, `l` or `f`; groups other than the default one need a word `g`. -/
theorem C93_absent (hlen : input.length < 2 ^ 63) {r : ObjectSet F} (h : Obj.parse cfg input = .ok r)
    {o : Object F} (ho : o ∈ r.objects) :
    (b!"p" ∉ tokens input → b!"l" ∉ tokens input → b!"f" ∉ tokens input →
      o.element_set = [] ∧ o.shape_set = []) ∧
    (b!"g" ∉ tokens input → o.group_set = [] ∨ o.group_set = [⟨b!"default"⟩]) := by
  have h12 := (C12_shape_entries hlen h o ho).1
  obtain ⟨file, hf, rfl⟩ := (Verif.Obj.parse_ok_iff hlen).mp h
  have hs := file_words hf
  obtain ⟨lo, ast, hm, rfl⟩ := mem_of_objects ho
  have hw := within_items (F := F) lo ast.items
  have hsub : ∀ w ∈ ast.items.map Item.word, w ∈ tokens input := fun w hw =>
    hs.subset (List.mem_flatMap.mpr ⟨ast, hm, by simp only [ObjAst.words]; exact List.mem_append_right _ hw⟩)
  refine ⟨fun h1 h2 h3 => ?_, fun h1 => hw.g (fun h => h1 (hsub _ h))⟩
  have he : (objMeaning lo ast : Object F).element_set = [] :=
    hw.el (fun h => h1 (hsub _ h)) (fun h => h2 (hsub _ h)) (fun h => h3 (hsub _ h))
  refine ⟨he, ?_⟩
  rw [he] at h12
  exact List.length_eq_zero_iff.mp h12

/-- **C93** Objects need words `o`, except for the first; a name needs a word `o` too; libraries
need a word `mtllib`. -/
theorem C93_objects (hlen : input.length < 2 ^ 63) {r : ObjectSet F} (h : Obj.parse cfg input = .ok r) :
    r.objects.length ≤ (tokens input).count b!"o" + 1 ∧
    (r.objects.filter (fun o => o.name ≠ [])).length ≤ (tokens input).count b!"o" ∧
    (b!"mtllib" ∉ tokens input → r.material_libraries = []) := by
  obtain ⟨file, hf, rfl⟩ := (Verif.Obj.parse_ok_iff hlen).mp h
  have hs := (file_words hf).count_le b!"o"
  obtain ⟨rest, hl, ho⟩ := hf
  obtain ⟨⟨pre, hpre⟩, hlib⟩ := libs_word hl
  refine ⟨?_, ?_, fun hn => by_contra fun hne => hn (hlib hne)⟩
  · have := objects_o ho
    have h2 : rest.count b!"o" ≤ (tokens input).count b!"o" := by
      rw [hpre, List.count_append]; omega
    simp only [meaning, objectsMeaning_length]
    split at this <;> omega
  · refine le_trans ?_ hs
    simp only [meaning]
    generalize ({} : Counts) = lo
    clear hs ho hl hlib
    induction file.objects generalizing lo with
    | nil => simp [objectsMeaning]
    | cons o objs ih =>
      have := ih (lo + countsOf o.items)
      simp only [objectsMeaning, List.flatMap_cons, List.count_append, ObjAst.words]
      rw [List.filter_cons]
      by_cases hn : o.name = [] <;> simp [objMeaning, hn] <;> simp at this <;> omega

end

section
open Verif.Mtl Verif.Spec.Mtl

/-- The words that set an attribute of a material. -/
def words : Attr → List Tok
  | .color s => [s.tag]
  | .num s => [s.tag]
  | .illum => [b!"illum"]
  | .map s => s.tags

/-- Two materials agree in an attribute. -/
def Agree (m m' : Material F) : Attr → Prop
  | .color s => colorOf m' s = colorOf m s
  | .num .dissolve => m'.dissolve = m.dissolve
  | .num .exponent => m'.specular_exponent = m.specular_exponent
  | .num .density => m'.optical_density = m.optical_density
  | .illum => m'.illumination_model = m.illumination_model
  | .map s => mapOf m' s = mapOf m s

theorem mtl_stmt_word {it : Item} {toks rest : List Tok} (h : Stmt it toks rest) :
    ∃ w ∈ words (attr it), ∃ pre, toks = w :: (pre ++ rest) := by
  cases h with
  | @color s r g b => exact ⟨_, by simp [attr, words], [r, g, b], rfl⟩
  | @num s x => exact ⟨_, by simp [attr, words], [x], rfl⟩
  | @illum model t => exact ⟨_, by simp [attr, words], [t], rfl⟩
  | @map s tag name rest h => exact ⟨tag, h, [name], rfl⟩

theorem mtl_body_word {items : List Item} {toks rest : List Tok} (h : Body items toks rest) :
    (∃ pre, toks = pre ++ rest) ∧ ∀ it ∈ items, ∃ w ∈ words (attr it), w ∈ toks := by
  induction h with
  | done => exact ⟨⟨[], rfl⟩, by simp⟩
  | blank _ ih =>
    obtain ⟨⟨pre, rfl⟩, h⟩ := ih
    exact ⟨⟨nl :: pre, rfl⟩, fun it hit => by
      obtain ⟨w, h1, h2⟩ := h it hit
      exact ⟨w, h1, List.mem_cons_of_mem _ h2⟩⟩
  | stmt h _ ih =>
    obtain ⟨w, hw, p, rfl⟩ := mtl_stmt_word h
    obtain ⟨⟨pre, rfl⟩, h⟩ := ih
    refine ⟨⟨w :: (p ++ pre), by simp⟩, fun it hit => ?_⟩
    rcases List.mem_cons.mp hit with rfl | hit
    · exact ⟨w, hw, List.mem_cons_self⟩
    · obtain ⟨w, h1, h2⟩ := h it hit
      exact ⟨w, h1, List.mem_cons_of_mem _ (List.mem_append_right _ h2)⟩

theorem mats_word {mats : List MatAst} {toks : List Tok} (h : Mats mats toks) :
    mats.length ≤ toks.count b!"newmtl" ∧
    ∀ m ∈ mats, ∀ it ∈ m.items, ∃ w ∈ words (attr it), w ∈ toks := by
  induction h with
  | done => simp
  | @mat name items mats toks rest h1 _ ih =>
    obtain ⟨⟨pre, rfl⟩, hw⟩ := mtl_body_word h1
    refine ⟨?_, fun m hm it hit => ?_⟩
    · have := ih.1
      simp only [List.length_cons, List.count_cons, List.count_append, beq_self_eq_true, if_true]
      omega
    · rcases List.mem_cons.mp hm with rfl | hm
      · obtain ⟨w, h1, h2⟩ := hw it hit
        exact ⟨w, h1, List.mem_cons_of_mem _ (List.mem_cons_of_mem _ h2)⟩
      · obtain ⟨w, h1, h2⟩ := ih.2 m hm it hit
        exact ⟨w, h1, List.mem_cons_of_mem _ (List.mem_cons_of_mem _ (List.mem_append_right _ h2))⟩

theorem mtl_file_word {mats : List MatAst} {toks : List Tok} (h : FileOk toks mats) :
    mats.length ≤ toks.count b!"newmtl" ∧
    ∀ m ∈ mats, ∀ it ∈ m.items, ∃ w ∈ words (attr it), w ∈ toks := by
  induction h with
  | blank _ ih =>
    refine ⟨ih.1.trans (by rw [List.count_cons]; omega), fun m hm it hit => ?_⟩
    obtain ⟨w, h1, h2⟩ := ih.2 m hm it hit
    exact ⟨w, h1, List.mem_cons_of_mem _ h2⟩
  | mats h => exact mats_word h

/-- **C93** There are at most as many materials as words `newmtl`, and an attribute whose words do
not occur has its default in all of them. -/
theorem C93_mtl {r : MaterialSet F} (h : Mtl.parse input = .ok r) :
    r.materials.length ≤ (tokens input).count b!"newmtl" ∧
    ∀ x : Attr, (∀ w ∈ words x, w ∉ tokens input) → ∀ m ∈ r.materials, HasDefault m x := by
  obtain ⟨mats, hf, hr⟩ := Mtl.parse_ok_iff.mp h
  obtain ⟨h1, h2⟩ := mtl_file_word hf
  refine ⟨by rw [hr]; simpa [meaning] using h1, fun x hx m hm => ?_⟩
  obtain ⟨j, hj⟩ := List.mem_iff_getElem?.mp hm
  have hj' : ∃ ast, mats[j]? = some ast := by
    rw [hr] at hj
    simp only [meaning, List.getElem?_map, Option.map_eq_some_iff] at hj
    exact ⟨_, hj.choose_spec.1⟩
  obtain ⟨ast, ha⟩ := hj'
  obtain ⟨m', hm', hd⟩ := C30_default h hf ha (a := x) (fun it hit he => by
    obtain ⟨w, hw, hw'⟩ := h2 ast (List.mem_of_getElem? ha) it hit
    exact hx w (he ▸ hw) hw')
  rw [hj] at hm'
  cases hm'
  exact hd

theorem mtl_body_more {items : List Item} {toks : List Tok} (h : Body items toks []) {Y : List Tok}
    {items' rest'} (h' : Body items' (toks ++ Y) rest') :
    ∃ more, items' = items ++ more ∧ Body more Y rest' := by
  generalize hr : ([] : List Tok) = rest at h
  induction h generalizing items' with
  | done => subst hr; exact ⟨items', rfl, h'⟩
  | blank h ih =>
    cases h' with
    | done h => exact absurd h (fun h => bodyEnd_not_nl h)
    | blank h' => exact ih h' hr
    | stmt h => exact absurd h stmt_not_nl
  | stmt h hb ih =>
    have hs := stmt_extend h Y
    generalize hall : _ ++ Y = all at h' hs
    cases h' with
    | done he => exact absurd hs (stmt_not_end he)
    | blank => exact absurd hs stmt_not_nl
    | stmt h2 hb2 =>
      obtain ⟨rfl, rfl⟩ := stmt_unique hs h2
      obtain ⟨more, rfl, hm⟩ := ih hb2 hr
      exact ⟨more, rfl, hm⟩

/-- The materials of a text and of a longer text. The words of all statements that are new are
in the part that is new. -/
theorem mats_more {mats : List MatAst} {toks : List Tok} (h : Mats mats toks) {Y : List Tok} {mats'}
    (h' : Mats mats' (toks ++ Y)) (hne : mats ≠ []) :
    ∃ init name items more post, mats = init ++ [⟨name, items⟩] ∧
      mats' = init ++ ⟨name, items ++ more⟩ :: post ∧
      (∀ it ∈ more, ∃ w ∈ words (attr it), w ∈ Y) ∧
      ∀ m ∈ post, ∀ it ∈ m.items, ∃ w ∈ words (attr it), w ∈ Y := by
  induction h generalizing mats' with
  | done => exact absurd rfl hne
  | @mat name items mats toks rest h1 h2 ih =>
    cases h' with
    | @mat _ items' mats2 _ rest2 g1 g2 =>
      by_cases hrest : rest = []
      · subst hrest
        obtain ⟨more, rfl, hm⟩ := mtl_body_more h1 g1
        obtain ⟨⟨pre, rfl⟩, hw⟩ := mtl_body_word hm
        cases h2 with
        | done =>
          refine ⟨[], name, items, more, mats2, rfl, rfl, hw, fun m hm it hit => ?_⟩
          obtain ⟨w, h1, h2⟩ := (mats_word g2).2 m hm it hit
          exact ⟨w, h1, List.mem_append_right _ h2⟩
      · obtain ⟨rfl, rfl⟩ := (body_grow h1 g1).2 hrest
        have hmats : mats ≠ [] := by
          rintro rfl
          cases h2
          exact hrest rfl
        obtain ⟨init, n, its, more, post, rfl, rfl, e1, e2⟩ := ih g2 hmats
        exact ⟨_ :: init, n, its, more, post, rfl, rfl, e1, e2⟩

theorem last_more {α β : Type} {f : α → Option β} {l more : List α} (h : ∀ z ∈ more, f z = none) :
    last f (l ++ more) = last f l := by
  have : more.filterMap f = [] := List.filterMap_eq_nil_iff.mpr h
  simp [last, List.filterMap_append, this]

theorem agree_more (name : Bytes) (items more : List Item) (x : Attr) (h : ∀ it ∈ more, attr it ≠ x) :
    Agree (matMeaning ⟨name, items⟩ : Material F) (matMeaning ⟨name, items ++ more⟩) x := by
  cases x with
  | color s =>
    simp only [Agree, colorOf_meaning]
    rw [last_more (fun z hz => color?_none (h z hz))]
  | num s =>
    have : last (Item.num? (F := F) s) (items ++ more) = last (Item.num? s) items :=
      last_more (fun z hz => num?_none (h z hz))
    cases s <;> simp only [Agree, matMeaning, this]
  | illum =>
    simp only [Agree, matMeaning]
    rw [last_more (fun z hz => illum?_none (h z hz))]
  | map s =>
    simp only [Agree, mapOf_meaning]
    rw [last_more (fun z hz => map?_none (h z hz))]

omit [FloatSem F] in
theorem agree_refl (m : Material F) (x : Attr) : Agree m m x := by
  cases x with
  | num s => cases s <;> rfl
  | _ => rfl

theorem file_more {mats : List MatAst} {toks : List Tok} (h : FileOk toks mats) {Y : List Tok} {mats'}
    (h' : FileOk (toks ++ Y) mats') (hne : mats ≠ []) :
    ∃ init name items more post, mats = init ++ [⟨name, items⟩] ∧
      mats' = init ++ ⟨name, items ++ more⟩ :: post ∧
      (∀ it ∈ more, ∃ w ∈ words (attr it), w ∈ Y) ∧
      ∀ m ∈ post, ∀ it ∈ m.items, ∃ w ∈ words (attr it), w ∈ Y := by
  induction h with
  | blank h ih =>
    cases h' with
    | blank h' => exact ih h' hne
    | mats h => exact absurd h mats_not_nl
  | mats h =>
    generalize hall : _ ++ Y = all at h'
    cases h' with
    | blank h' =>
      cases h with
      | done => exact absurd rfl hne
      | mat => cases hall
    | mats h' => subst hall; exact mats_more h h' hne

theorem file_none {toks : List Tok} {mats : List MatAst} (h : FileOk toks mats) (he : mats = []) :
    ∀ t ∈ toks, t = nl := by
  induction h with
  | blank _ ih => exact fun t ht => (List.mem_cons.mp ht).elim id (ih he t)
  | mats h => cases h with
    | done => simp
    | mat => cases he

theorem word_not_nl (x : Attr) : nl ∉ words x := by
  cases x with
  | color s => cases s <;> decide
  | num s => cases s <;> decide
  | illum => decide
  | map s => cases s <;> decide

theorem default_of (ast : MatAst) (x : Attr) (h : ∀ it ∈ ast.items, attr it ≠ x) :
    HasDefault (matMeaning ast : Material F) x := by
  cases x with
  | color s =>
    rw [HasDefault, colorOf_meaning, last_none (fun z hz => color?_none (h z hz))]
    rfl
  | num s =>
    have : last (Item.num? (F := F) s) ast.items = none := last_none (fun z hz => num?_none (h z hz))
    cases s <;> simp only [HasDefault, matMeaning, this, Option.getD_none]
  | illum =>
    rw [HasDefault]
    simp only [matMeaning]
    rw [last_none (fun z hz => illum?_none (h z hz))]
    rfl
  | map s => rw [HasDefault, mapOf_meaning, last_none (fun z hz => map?_none (h z hz))]

/-- **C93** Lines without the words for an attribute do not change it in the materials of the lines
before them, and give its default to their own. -/
theorem C93_kept {a b : Bytes} {r r' : MaterialSet F} (h : Mtl.parse (a ++ [10]) = .ok r)
    (h' : Mtl.parse (a ++ 10 :: b) = .ok r') {x : Attr} (hx : ∀ w ∈ words x, w ∉ tokens b) :
    (∀ (j : Nat) m m', r.materials[j]? = some m → r'.materials[j]? = some m' → Agree m m' x) ∧
    (∀ (j : Nat) m', r.materials.length ≤ j → r'.materials[j]? = some m' → HasDefault m' x) := by
  by_cases hne : r.materials = []
  · refine ⟨fun j m m' hj => by simp [hne] at hj, fun j m' _ hj => ?_⟩
    obtain ⟨mats, hf, rfl⟩ := Mtl.parse_ok_iff.mp h
    refine (C93_mtl h').2 x (fun w hw hin => ?_) m' (List.mem_of_getElem? hj)
    rw [tokens_two_lines, List.mem_append] at hin
    rcases hin with hin | hin
    · have := file_none hf (by simpa [meaning] using hne) w hin
      exact word_not_nl x (this ▸ hw)
    · exact hx w hw hin
  · obtain ⟨mats, hf, rfl⟩ := Mtl.parse_ok_iff.mp h
    obtain ⟨mats', hf', rfl⟩ := Mtl.parse_ok_iff.mp h'
    rw [tokens_two_lines] at hf'
    obtain ⟨init, name, items, more, post, rfl, rfl, h1, h2⟩ :=
      file_more hf hf' (fun e => hne (by simp [meaning, e]))
    have hno : ∀ {it : Item}, (∃ w ∈ words (attr it), w ∈ tokens b) → attr it ≠ x := by
      rintro it ⟨w, hw, hw'⟩ rfl
      exact hx w hw hw'
    simp only [meaning, List.map_append, List.map_cons, List.map_nil]
    refine ⟨fun j m m' hj hj' => ?_, fun j m' hj hj' => ?_⟩
    · rcases lt_trichotomy j init.length with hlt | rfl | hlt
      · rw [List.getElem?_append_left (by simpa using hlt)] at hj hj'
        rw [hj] at hj'
        cases hj'
        exact agree_refl _ _
      · rw [List.getElem?_append_right (by simp)] at hj hj'
        simp at hj hj'
        subst hj hj'
        exact agree_more name items more x (fun it hit => hno (h1 it hit))
      · rw [List.getElem?_eq_none (by simp; omega)] at hj
        cases hj
    · simp only [List.length_append, List.length_map, List.length_cons, List.length_nil] at hj
      rw [List.getElem?_append_right (by simp; omega)] at hj'
      obtain ⟨k, hk⟩ : ∃ k, j - (init.map matMeaning : List (Material F)).length = k + 1 :=
        ⟨j - init.length - 1, by simp; omega⟩
      rw [hk, List.getElem?_cons_succ, List.getElem?_map, Option.map_eq_some_iff] at hj'
      obtain ⟨ast, hast, rfl⟩ := hj'
      exact default_of ast x (fun it hit => hno (h2 ast (List.mem_of_getElem? hast) it hit))

end

/-! ## Examples -/

/-- The sample has words of every kind. Its vertices, texture vertices, normals and materials are
as many as the words for them, so the bounds are attained. -/
example : (sampleResult.objects.flatMap (·.vertex_set)).length = (tokens sample).count b!"v" ∧
    (sampleResult.objects.flatMap (·.texture_vertex_set)).length = (tokens sample).count b!"vt" ∧
    (sampleResult.objects.flatMap (·.normal_vertex_set)).length = (tokens sample).count b!"vn" ∧
    (sampleResult.objects.flatMap (·.geometry_set.filter (·.material_name.isSome))).length =
      (tokens sample).count b!"usemtl" ∧
    sampleResult.objects.length = (tokens sample).count b!"o" + 1 ∧
    sampleResult.material_libraries ≠ [] := by decide +kernel

example := C93_tables (F := Bytes) (cfg := debug) sample_length sample_parses
example := C93_defaults (F := Bytes) (cfg := debug) sample_length sample_parses
example := C93_objects (F := Bytes) (cfg := debug) sample_length sample_parses

/-- The words can be names as well: here `v`, `vt` and `g` are groups. -/
example : ∃ r : Obj.ObjectSet Bytes, Obj.parse debug b!"v 0 0 0\ng v vt g\np 1\n" = .ok r ∧
    (r.objects.flatMap (·.vertex_set)).length = 1 ∧
    (tokens b!"v 0 0 0\ng v vt g\np 1\n").count b!"v" = 2 :=
  ⟨⟨[], [⟨[], [⟨b!"0", b!"0", b!"0", b!"1"⟩], [], [], [⟨b!"v"⟩, ⟨b!"vt"⟩, ⟨b!"g"⟩], [⟨0⟩],
    [.Point (.V 0)], [⟨0, [0, 1, 2], 0⟩], [⟨none, [0]⟩]⟩]⟩, by decide +kernel, by decide, by decide +kernel⟩

/-- A text without `g`, and one without `p`, `l` and `f`. -/
example : (∃ r : Obj.ObjectSet Bytes, Obj.parse debug b!"v 0 0 0\np 1\n" = .ok r ∧
      r.objects.map (·.group_set) = [[⟨b!"default"⟩]]) ∧ b!"g" ∉ tokens b!"v 0 0 0\np 1\n" ∧
    (∃ r : Obj.ObjectSet Bytes, Obj.parse debug b!"v 0 0 0\nusemtl a\n" = .ok r ∧
      r.objects.map (·.element_set) = [[]]) ∧
    ∀ w ∈ [b!"p", b!"l", b!"f"], w ∉ tokens b!"v 0 0 0\nusemtl a\n" := by
  refine ⟨⟨⟨[], [⟨[], [⟨b!"0", b!"0", b!"0", b!"1"⟩], [], [], [⟨b!"default"⟩], [⟨0⟩],
    [.Point (.V 0)], [⟨0, [0], 0⟩], [⟨none, [0]⟩]⟩]⟩, by decide +kernel, by decide⟩, by decide +kernel,
    ⟨⟨[], [⟨[], [⟨b!"0", b!"0", b!"0", b!"1"⟩], [], [], [], [], [], [], [⟨some b!"a", []⟩]⟩]⟩,
      by decide +kernel, by decide⟩, by decide +kernel⟩

/-- The lines after the second one do not contain `bump` or `map_Bump`. -/
example : ∃ r r' : Mtl.MaterialSet Bytes,
    Mtl.parse (b!"newmtl a\nbump x" ++ [10]) = .ok r ∧
    Mtl.parse (b!"newmtl a\nbump x" ++ 10 :: b!"decal y\nnewmtl b\n") = .ok r' ∧
    (∀ w ∈ words (.map .bump), w ∉ tokens b!"decal y\nnewmtl b\n") ∧
    r.materials.map (·.map_bump) = [some b!"x"] ∧
    r'.materials.map (·.map_bump) = [some b!"x", none] := by
  refine ⟨⟨[{ (Mtl.Material.new : Mtl.Material Bytes) with name := b!"a", map_bump := some b!"x" }]⟩,
    ⟨[{ (Mtl.Material.new : Mtl.Material Bytes) with name := b!"a", map_bump := some b!"x", map_decal := some b!"y" },
      { (Mtl.Material.new : Mtl.Material Bytes) with name := b!"b" }]⟩, ?_, ?_, ?_, ?_, ?_⟩ <;> decide +kernel

end Verif.Props
