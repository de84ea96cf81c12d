import Verif.Proofs.Cut
import Verif.Props.RoundTrip
import Verif.Props.Robust
import Verif.Props.Objects

/-!
# Properties C60, C61 and C63

Empty lines, the type of numbers, cutting a text.
-/

namespace Verif.Props

open Verif Verif.Spec

variable {F : Type} [FloatSem F] {cfg : Obj.Cfg} {a b input : Bytes}

/-! ## C60 -/

theorem tokens_dup {a b : Bytes} (hb : tokens b ≠ []) : Dup (tokens (a ++ 10 :: b)) (tokens (a ++ 10 :: 10 :: b)) := by
  refine ⟨tokens a, tokens b, hb, tokens_append_nl a b, ?_⟩
  have h := tokens_append_nl [] b
  rw [List.nil_append, show tokens [] = [] from by decide, List.nil_append] at h
  rw [tokens_append_nl, h]

/-- **C60** An empty line may be inserted anywhere between the lines of an accepted OBJ text. -/
theorem C60_empty_line_obj (hlen : (a ++ 10 :: 10 :: b).length < 2 ^ 63) {r : Obj.ObjectSet F}
    (h : Obj.parse cfg (a ++ 10 :: b) = .ok r) : Obj.parse cfg (a ++ 10 :: 10 :: b) = .ok r := by
  have hl : (a ++ 10 :: b).length < 2 ^ 63 := by simp at hlen ⊢; omega
  obtain ⟨file, hf, rfl⟩ := (Obj.parse_ok_iff hl).mp h
  refine (Obj.parse_ok_iff hlen).mpr ⟨file, ?_, rfl⟩
  by_cases hb : tokens b = []
  · have h1 := Obj.file_append hf (X := []) (.inl rfl) .done
    have h2 := tokens_append_nl [] b
    rw [List.nil_append, show tokens [] = [] from by decide, List.nil_append, hb] at h2
    rw [tokens_append_nl, h2]
    rw [tokens_append_nl, hb] at h1
    simpa using h1
  · exact Obj.file_dup hf (tokens_dup hb)

/-- **C60** In an MTL text one of two adjacent line ends may also be removed. -/
theorem C60_empty_line_mtl {r : Mtl.MaterialSet F} (hb : tokens b ≠ []) :
    Mtl.parse (a ++ 10 :: 10 :: b) = .ok r ↔ Mtl.parse (a ++ 10 :: b) = .ok r := by
  rw [Mtl.parse_ok_iff, Mtl.parse_ok_iff]
  have hd := tokens_dup (a := a) hb
  constructor
  · rintro ⟨mats, hf, rfl⟩
    exact ⟨mats, Mtl.file_undup hf hd, rfl⟩
  · rintro ⟨mats, hf, rfl⟩
    exact ⟨mats, Mtl.file_dup hf hd, rfl⟩

/-- **C60** Also at the end of an MTL text a line end may be added. -/
theorem C60_last_line_mtl {r : Mtl.MaterialSet F} (h : Mtl.parse (a ++ 10 :: b) = .ok r) :
    Mtl.parse (a ++ 10 :: 10 :: b) = .ok r := by
  by_cases hb : tokens b = []
  · have := C38_final_newline_mtl h
    rw [Mtl.parse_ok_iff] at this ⊢
    obtain ⟨mats, hf, rfl⟩ := this
    refine ⟨mats, ?_, rfl⟩
    have h2 := tokens_append_nl [] b
    rw [List.nil_append, show tokens [] = [] from by decide, List.nil_append, hb] at h2
    have h3 : tokens (a ++ 10 :: b ++ b!"\n") = tokens a ++ [nl, nl] := by
      rw [List.append_assoc, List.cons_append, tokens_append_nl,
        show b ++ b!"\n" = b ++ 10 :: [] from rfl, tokens_append_nl, hb]
      simp [show tokens [] = [] from by decide]
    rw [h3] at hf
    rw [tokens_append_nl, h2]
    exact hf
  · exact (C60_empty_line_mtl hb).mpr h

example : Obj.parse debug (b!"v 0 0 0" ++ 10 :: 10 :: b!"usemtl\np 1\n") =
    (.ok ⟨[], [⟨[], [⟨b!"0", b!"0", b!"0", b!"1"⟩], [], [], [⟨b!"default"⟩], [⟨0⟩], [.Point (.V 0)], [⟨0, [0], 0⟩],
      [⟨some b!"\n", [0]⟩]⟩]⟩ : Out Obj.ErrorKind (Obj.ObjectSet Bytes)) :=
  C60_empty_line_obj (by decide) (by decide +kernel)

/-- An empty line of an OBJ text cannot always be removed. -/
example : (Obj.parse debug b!"o\n\nusemtl a\n" : Out Obj.ErrorKind (Obj.ObjectSet Bytes)) =
      .ok ⟨[], [⟨b!"\n", [], [], [], [], [], [], [], [⟨some b!"a", []⟩]⟩]⟩ ∧
    (Obj.parse debug b!"o\nusemtl a\n" : Out Obj.ErrorKind (Obj.ObjectSet Bytes)) =
      .err ⟨2, .ExpectedTagStatement, b!"Expected `\n` but got `usemtl` instead."⟩ := by decide +kernel

example : Mtl.parse (b!"newmtl" ++ 10 :: 10 :: b!"newmtl b\n") =
    (Mtl.parse (b!"newmtl" ++ 10 :: b!"newmtl b\n") : Out Mtl.ErrorKind (Mtl.MaterialSet Bytes)) := by
  have h : ∃ r, Mtl.parse (b!"newmtl" ++ 10 :: b!"newmtl b\n") =
      (.ok r : Out Mtl.ErrorKind (Mtl.MaterialSet Bytes)) :=
    ⟨⟨[{ (Mtl.Material.new : Mtl.Material Bytes) with name := nl },
      { (Mtl.Material.new : Mtl.Material Bytes) with name := b!"b" }]⟩, by decide +kernel⟩
  obtain ⟨r, h⟩ := h
  rw [h, C60_empty_line_mtl (by decide), h]

/-! ## C61 -/

section
variable {G : Type} [FloatSem G]

/-- Replace all floating point numbers of an object. -/
def mapObject (φ : F → G) (o : Obj.Object F) : Obj.Object G where
  name := o.name
  vertex_set := o.vertex_set.map fun p => ⟨φ p.x, φ p.y, φ p.z, φ p.w⟩
  texture_vertex_set := o.texture_vertex_set.map fun p => ⟨φ p.u, φ p.v, φ p.w⟩
  normal_vertex_set := o.normal_vertex_set.map fun p => ⟨φ p.x, φ p.y, φ p.z⟩
  group_set := o.group_set
  smoothing_group_set := o.smoothing_group_set
  element_set := o.element_set
  shape_set := o.shape_set
  geometry_set := o.geometry_set

def mapObjects (φ : F → G) (r : Obj.ObjectSet F) : Obj.ObjectSet G :=
  ⟨r.material_libraries, r.objects.map (mapObject φ)⟩

/-- Replace all floating point numbers of a material. -/
def mapMaterial (φ : F → G) (m : Mtl.Material F) : Mtl.Material G where
  name := m.name
  color_ambient := ⟨φ m.color_ambient.r, φ m.color_ambient.g, φ m.color_ambient.b⟩
  color_diffuse := ⟨φ m.color_diffuse.r, φ m.color_diffuse.g, φ m.color_diffuse.b⟩
  color_specular := ⟨φ m.color_specular.r, φ m.color_specular.g, φ m.color_specular.b⟩
  color_emissive := ⟨φ m.color_emissive.r, φ m.color_emissive.g, φ m.color_emissive.b⟩
  specular_exponent := φ m.specular_exponent
  dissolve := φ m.dissolve
  optical_density := m.optical_density.map φ
  illumination_model := m.illumination_model
  map_ambient := m.map_ambient
  map_diffuse := m.map_diffuse
  map_specular := m.map_specular
  map_emissive := m.map_emissive
  map_specular_exponent := m.map_specular_exponent
  map_bump := m.map_bump
  map_displacement := m.map_displacement
  map_dissolve := m.map_dissolve
  map_decal := m.map_decal

/-- `φ` takes the value of a numeral in one type to its value in the other. -/
structure FloatHom (φ : F → G) : Prop where
  value : ∀ t, isFloat t = true → φ (FloatSem.value t) = FloatSem.value t
  zero : φ FloatSem.zero = FloatSem.zero
  one : φ FloatSem.one = FloatSem.one

def Out.mapOk {K α β : Type} (f : α → β) : Out K α → Out K β
  | .ok a => .ok (f a)
  | .err e => .err e
  | .panic s => .panic s
  | .outOfFuel => .outOfFuel

def mapAcc (φ : F → G) (a : Obj.Acc F) : Obj.Acc G where
  vertices := a.vertices.map fun p => ⟨φ p.x, φ p.y, φ p.z, φ p.w⟩
  textures := a.textures.map fun p => ⟨φ p.u, φ p.v, φ p.w⟩
  normals := a.normals.map fun p => ⟨φ p.x, φ p.y, φ p.z⟩
  groups := a.groups
  inGroups := a.inGroups
  smoothing := a.smoothing
  inSmoothing := a.inSmoothing
  elements := a.elements
  shapes := a.shapes
  geometries := a.geometries
  material := a.material
  ofMaterial := a.ofMaterial

omit [FloatSem F] [FloatSem G] in
theorem mapAcc_defaults (φ : F → G) (a : Obj.Acc F) : (mapAcc φ a).defaults = mapAcc φ a.defaults := by
  by_cases h1 : a.groups = [] <;> by_cases h2 : a.smoothing = [] <;>
    simp [mapAcc, Obj.Acc.defaults, h1, h2]

theorem mapAcc_step {φ : F → G} (hφ : FloatHom φ) (lo : Obj.Counts) {hi : Obj.Counts} (a : Obj.Acc F)
    {it : Obj.Item} (h : Obj.ValidItem lo hi it) : (mapAcc φ a).step lo it = mapAcc φ (a.step lo it) := by
  cases it with
  | v x y z w =>
    obtain ⟨h1, h2, h3, h4⟩ := h
    cases w with
    | none => simp [mapAcc, Obj.Acc.step, hφ.value _ h1, hφ.value _ h2, hφ.value _ h3, hφ.one]
    | some w => simp [mapAcc, Obj.Acc.step, hφ.value _ h1, hφ.value _ h2, hφ.value _ h3, hφ.value _ (h4 w rfl)]
  | vt u v w =>
    obtain ⟨h1, h2, h3, h4⟩ := h
    cases v with
    | none =>
      obtain rfl := h4 rfl
      simp [mapAcc, Obj.Acc.step, hφ.value _ h1, hφ.zero]
    | some v =>
      cases w with
      | none => simp [mapAcc, Obj.Acc.step, hφ.value _ h1, hφ.value _ (h2 v rfl), hφ.zero]
      | some w => simp [mapAcc, Obj.Acc.step, hφ.value _ h1, hφ.value _ (h2 v rfl), hφ.value _ (h3 w rfl)]
  | vn x y z =>
    obtain ⟨h1, h2, h3⟩ := h
    simp [mapAcc, Obj.Acc.step, hφ.value _ h1, hφ.value _ h2, hφ.value _ h3]
  | usemtl name =>
    by_cases hm : a.ofMaterial = [] <;> simp [mapAcc, Obj.Acc.step, hm]
  | p => simp only [Obj.Acc.step, mapAcc_defaults]; rfl
  | l => simp only [Obj.Acc.step, mapAcc_defaults]; rfl
  | f => simp only [Obj.Acc.step, mapAcc_defaults]; rfl
  | g => rfl
  | s => rfl

theorem mapAcc_fold {φ : F → G} (hφ : FloatHom φ) (lo : Obj.Counts) (items : List Obj.Item) :
    ∀ {hi : Obj.Counts} (a : Obj.Acc F), Obj.ValidItems lo hi items →
      items.foldl (Obj.Acc.step lo) (mapAcc φ a) = mapAcc φ (items.foldl (Obj.Acc.step lo) a) := by
  induction items with
  | nil => intros; rfl
  | cons it items ih =>
    intro hi a h
    rw [List.foldl_cons, List.foldl_cons, mapAcc_step hφ lo a h.1, ih _ h.2]

theorem mapObject_meaning {φ : F → G} (hφ : FloatHom φ) {lo hi : Obj.Counts} {o : Obj.ObjAst}
    (h : Obj.ValidItems lo hi o.items) : (Obj.objMeaning lo o : Obj.Object G) = mapObject φ (Obj.objMeaning lo o) := by
  have := mapAcc_fold hφ lo o.items ({} : Obj.Acc F) h
  have e : mapAcc φ ({} : Obj.Acc F) = {} := rfl
  rw [e] at this
  simp only [Obj.objMeaning, this]
  rfl

theorem mapObjects_meaning {φ : F → G} (hφ : FloatHom φ) (objs : List Obj.ObjAst) :
    ∀ {lo : Obj.Counts}, Obj.ValidObjects lo objs →
      (Obj.objectsMeaning lo objs : List (Obj.Object G)) = (Obj.objectsMeaning lo objs).map (mapObject φ) := by
  induction objs with
  | nil => intros; rfl
  | cons o objs ih =>
    intro lo h
    simp only [Obj.objectsMeaning, List.map_cons]
    rw [mapObject_meaning hφ h.2.1, ih h.2.2.2]

/-- **C61** `obj::parse` does not look at or compute with floating point values: parsing with another
type of numbers gives the same outcome with all numbers replaced. -/
theorem C61_numbers_obj (hlen : input.length < 2 ^ 63) {φ : F → G} (hφ : FloatHom φ) :
    (Obj.parse cfg input : Out Obj.ErrorKind (Obj.ObjectSet G)) =
      Out.mapOk (mapObjects φ) (Obj.parse cfg input : Out Obj.ErrorKind (Obj.ObjectSet F)) := by
  rcases Obj.file_total cfg (tokens input) with ⟨file, hf⟩ | ⟨k, m, rest, hf⟩ | ⟨x, hf⟩
  · rw [Obj.parse_ok_of hlen hf, Obj.parse_ok_of hlen hf]
    simp only [Out.mapOk, Out.ok.injEq, mapObjects, Obj.meaning, Obj.ObjectSet.mk.injEq, true_and]
    have hv := (C28_read_valid hf).2
    cases ho : file.objects with
    | nil => rfl
    | cons o os =>
      rw [ho] at hv
      simp only [Obj.objectsMeaning, List.map_cons]
      rw [mapObject_meaning hφ hv.2.1, mapObjects_meaning hφ os (by rw [Obj.counts_zero_add]; exact hv.2.2.2)]
  · rw [Obj.parse_err_of hlen hf, Obj.parse_err_of hlen hf]; rfl
  · rw [Obj.parse_panic_of hlen hf, Obj.parse_panic_of hlen hf]; rfl

/-- The numbers of a statement are numerals. -/
def NumeralItem : Mtl.Item → Prop
  | .color _ r g b => isFloat r = true ∧ isFloat g = true ∧ isFloat b = true
  | .num _ x => isFloat x = true
  | _ => True

theorem body_numerals {items toks rest} (h : Mtl.Body items toks rest) : ∀ it ∈ items, NumeralItem it := by
  induction h with
  | done => simp
  | blank _ ih => exact ih
  | stmt h _ ih =>
    rw [List.forall_mem_cons]
    refine ⟨?_, ih⟩
    cases h with
    | color h1 h2 h3 => exact ⟨h1, h2, h3⟩
    | num h => exact h
    | illum => trivial
    | map => trivial

theorem file_numerals {toks mats} (h : Mtl.FileOk toks mats) : ∀ m ∈ mats, ∀ it ∈ m.items, NumeralItem it := by
  have hm : ∀ {mats toks}, Mtl.Mats mats toks → ∀ m ∈ mats, ∀ it ∈ m.items, NumeralItem it := by
    intro mats toks h
    induction h with
    | done => simp
    | mat hb _ ih =>
      rw [List.forall_mem_cons]
      exact ⟨body_numerals hb, ih⟩
  induction h with
  | blank _ ih => exact ih
  | mats h => exact hm h

theorem last_map {α β γ : Type} {f : α → Option β} {g : α → Option γ} {ψ : β → γ} {l : List α}
    (h : ∀ x ∈ l, g x = (f x).map ψ) : Mtl.last g l = (Mtl.last f l).map ψ := by
  have : l.filterMap g = (l.filterMap f).map ψ := by
    induction l with
    | nil => rfl
    | cons x l ih =>
      rw [List.forall_mem_cons] at h
      rw [List.filterMap_cons, List.filterMap_cons, h.1, ih h.2]
      cases f x <;> rfl
  rw [Mtl.last, Mtl.last, this, List.getLast?_map]

theorem mapMaterial_meaning {φ : F → G} (hφ : FloatHom φ) {m : Mtl.MatAst}
    (h : ∀ it ∈ m.items, NumeralItem it) :
    (Mtl.matMeaning m : Mtl.Material G) = mapMaterial φ (Mtl.matMeaning m) := by
  have hc : ∀ s, Mtl.last (Mtl.Item.color? (F := G) s) m.items =
      (Mtl.last (Mtl.Item.color? (F := F) s) m.items).map fun c => ⟨φ c.r, φ c.g, φ c.b⟩ := by
    intro s
    refine last_map fun it hit => ?_
    have := h it hit
    cases it with
    | color s' r g b =>
      obtain ⟨h1, h2, h3⟩ := this
      by_cases e : s' = s <;> simp [Mtl.Item.color?, e, hφ.value _ h1, hφ.value _ h2, hφ.value _ h3]
    | _ => rfl
  have hn : ∀ s, Mtl.last (Mtl.Item.num? (F := G) s) m.items =
      (Mtl.last (Mtl.Item.num? (F := F) s) m.items).map φ := by
    intro s
    refine last_map fun it hit => ?_
    have := h it hit
    cases it with
    | num s' x => by_cases e : s' = s <;> simp [Mtl.Item.num?, e, hφ.value _ this]
    | _ => rfl
  simp only [Mtl.matMeaning, mapMaterial, hc, hn]
  congr 1
  · cases Mtl.last (Mtl.Item.color? (F := F) .ambient) m.items <;> simp [hφ.zero]
  · cases Mtl.last (Mtl.Item.color? (F := F) .diffuse) m.items <;> simp [hφ.zero]
  · cases Mtl.last (Mtl.Item.color? (F := F) .specular) m.items <;> simp [hφ.zero]
  · cases Mtl.last (Mtl.Item.color? (F := F) .emissive) m.items <;> simp [hφ.zero]
  · cases Mtl.last (Mtl.Item.num? (F := F) .exponent) m.items <;> simp [hφ.zero]
  · cases Mtl.last (Mtl.Item.num? (F := F) .dissolve) m.items <;> simp [hφ.one]

/-- **C61** The same for `mtl::parse`. -/
theorem C61_numbers_mtl {φ : F → G} (hφ : FloatHom φ) :
    (Mtl.parse input : Out Mtl.ErrorKind (Mtl.MaterialSet G)) =
      Out.mapOk (fun r => ⟨r.materials.map (mapMaterial φ)⟩)
        (Mtl.parse input : Out Mtl.ErrorKind (Mtl.MaterialSet F)) := by
  rcases Mtl.file_total (tokens input) with ⟨mats, hf⟩ | ⟨k, m, rest, hf⟩
  · rw [Mtl.parse_ok_of hf, Mtl.parse_ok_of hf]
    simp only [Out.mapOk, Out.ok.injEq, Mtl.meaning, Mtl.MaterialSet.mk.injEq, List.map_map]
    exact List.map_congr_left fun m hm => mapMaterial_meaning hφ (file_numerals hf m hm)
  · rw [Mtl.parse_err_of hf, Mtl.parse_err_of hf]; rfl

end

/-- Numbers of any other type are images of the texts themselves. -/
theorem hom_of_text {G : Type} [FloatSem G] (h0 : (FloatSem.value b!"0" : G) = FloatSem.zero)
    (h1 : (FloatSem.value b!"1" : G) = FloatSem.one) : FloatHom (FloatSem.value : Bytes → G) :=
  ⟨fun _ _ => rfl, h0, h1⟩

/-- So the result for the sample with any type of numbers is known. -/
example {G : Type} [FloatSem G] (h0 : (FloatSem.value b!"0" : G) = FloatSem.zero)
    (h1 : (FloatSem.value b!"1" : G) = FloatSem.one) :
    Obj.parse debug sample = .ok (mapObjects (FloatSem.value : Bytes → G) sampleResult) := by
  rw [C61_numbers_obj sample_length (hom_of_text h0 h1), sample_parses]; rfl

/-! ## C63 -/

theorem tokens_cut {t : Tok} (hb : (tokens b).head? = some t) :
    CutAt t (tokens b).tail (tokens (a ++ 10 :: b)) (tokens (a ++ [10])) := by
  refine ⟨tokens a, ?_, ?_⟩
  · rw [tokens_append_nl]
    cases h : tokens b with
    | nil => rw [h] at hb; cases hb
    | cons x xs =>
      rw [h] at hb
      simp only [List.head?_cons, Option.some.injEq] at hb
      subst hb
      rfl
  · rw [tokens_append_nl]
    simp [show tokens [] = [] from by decide]

/-- **C63** An accepted OBJ text may be cut off before any line that begins with `o`: what is left is
accepted, with the objects up to there. -/
theorem C63_cut_obj (hlen : (a ++ 10 :: b).length < 2 ^ 63) (hb : (tokens b).head? = some b!"o")
    {r : Obj.ObjectSet F} (h : Obj.parse cfg (a ++ 10 :: b) = .ok r) :
    ∃ n, n < r.objects.length ∧
      Obj.parse cfg (a ++ [10]) = .ok ⟨r.material_libraries, r.objects.take n⟩ := by
  have hlen' : (a ++ [10]).length < 2 ^ 63 := by simp at hlen ⊢; omega
  obtain ⟨file, hf, rfl⟩ := (Obj.parse_ok_iff hlen).mp h
  obtain ⟨x, y, e, hy, hf'⟩ := Obj.file_cut hf (tokens_cut hb)
  refine ⟨x.length, ?_, ?_⟩
  · have : 0 < y.length := List.length_pos_iff.mpr hy
    have hl := Obj.objectsMeaning_length (F := F) {} file.objects
    rw [e, List.length_append] at hl
    simp only [Obj.meaning, e, hl]
    omega
  · rw [Obj.parse_ok_of hlen' hf']
    have hl := Obj.objectsMeaning_length (F := F) {} x
    simp [Obj.meaning, e, objectsMeaning_append, hl]

/-- **C63** An accepted MTL text may be cut into two before any line that begins with `newmtl`. -/
theorem C63_cut_mtl (hb : (tokens b).head? = some b!"newmtl") {r : Mtl.MaterialSet F}
    (h : Mtl.parse (a ++ 10 :: b) = .ok r) :
    ∃ r₁ r₂ : Mtl.MaterialSet F, Mtl.parse (a ++ [10]) = .ok r₁ ∧ Mtl.parse b = .ok r₂ ∧
      r.materials = r₁.materials ++ r₂.materials := by
  obtain ⟨mats, hf, rfl⟩ := Mtl.parse_ok_iff.mp h
  obtain ⟨x, y, rfl, h1, h2⟩ := Mtl.file_cut hf (tokens_cut hb)
  refine ⟨Mtl.meaning x, Mtl.meaning y, Mtl.parse_ok_of h1, Mtl.parse_ok_of ?_, by simp [Mtl.meaning]⟩
  have : b!"newmtl" :: (tokens b).tail = tokens b := by
    cases h : tokens b with
    | nil => rw [h] at hb; cases hb
    | cons x xs =>
      rw [h] at hb
      simp only [List.head?_cons, Option.some.injEq] at hb
      subst hb
      rfl
  rwa [this] at h2

/-- The sample, cut before its second object. -/
example : ∃ n, n < 2 ∧ Obj.parse debug (b!"o a\nv 0 0 0\np 1" ++ [10]) =
    (.ok ⟨[], List.take n [⟨b!"a", [⟨b!"0", b!"0", b!"0", b!"1"⟩], [], [], [⟨b!"default"⟩], [⟨0⟩], [.Point (.V 0)],
        [⟨0, [0], 0⟩], [⟨none, [0]⟩]⟩,
      ⟨b!"b", [⟨b!"1", b!"1", b!"1", b!"1"⟩], [], [], [⟨b!"default"⟩], [⟨0⟩], [.Point (.V 0)],
        [⟨0, [0], 0⟩], [⟨none, [0]⟩]⟩]⟩ : Out Obj.ErrorKind (Obj.ObjectSet Bytes)) :=
  C63_cut_obj (b := b!"o b\nv 1 1 1\np 2\n") (by decide) (by decide)
    (r := ⟨[], [⟨b!"a", [⟨b!"0", b!"0", b!"0", b!"1"⟩], [], [], [⟨b!"default"⟩], [⟨0⟩], [.Point (.V 0)],
        [⟨0, [0], 0⟩], [⟨none, [0]⟩]⟩,
      ⟨b!"b", [⟨b!"1", b!"1", b!"1", b!"1"⟩], [], [], [⟨b!"default"⟩], [⟨0⟩], [.Point (.V 0)],
        [⟨0, [0], 0⟩], [⟨none, [0]⟩]⟩]⟩) (by decide +kernel)

/-- The part after the cut of an OBJ text is in general not accepted by itself. -/
example : Obj.parse debug b!"o b\nv 1 1 1\np 2\n" =
    (.err ⟨3, .VTNIndexOutOfRange, b!"Expected index in range [0, 1), but got 1."⟩ :
      Out Obj.ErrorKind (Obj.ObjectSet Bytes)) := by decide +kernel

example : ∃ r₁ r₂ : Mtl.MaterialSet Bytes, Mtl.parse (b!"newmtl a\nillum 2" ++ [10]) = .ok r₁ ∧
    Mtl.parse b!"newmtl b\n" = .ok r₂ ∧
    [{ (Mtl.Material.new : Mtl.Material Bytes) with name := b!"a", illumination_model := .AmbientDiffuseSpecular },
      { (Mtl.Material.new : Mtl.Material Bytes) with name := b!"b" }] = r₁.materials ++ r₂.materials :=
  C63_cut_mtl (by decide) (r := ⟨[{ (Mtl.Material.new : Mtl.Material Bytes) with name := b!"a", illumination_model := .AmbientDiffuseSpecular },
      { (Mtl.Material.new : Mtl.Material Bytes) with name := b!"b" }]⟩) (by decide +kernel)

end Verif.Props
