import Verif.Proofs.Pretty
import Verif.Props.Strings
import Verif.Props.Clone

/-!
# Property C107: the `{:#?}` text of a value identifies it
-/

namespace Verif.Props

open Verif Verif.Spec
open Verif.Debug hiding struct tuple vec option
open Verif.Pretty

section
variable {F : Type} [FloatSem F] [FloatDebug F] [LawfulDebug F]

theorem pretty_vertex : Code (Obj.Vertex.pretty (F := F)) (fun _ => True) := by
  refine ⟨fun {a b} _ _ => ?_, fun _ => ⟨_, _, rfl, by decide⟩⟩
  refine (pretty_struct (.cons (code_float.link trivial trivial)
    (.cons (code_float.link trivial trivial)
    (.cons (code_float.link trivial trivial)
    (.one (code_float.link trivial trivial)))))).imp ?_
  obtain ⟨⟩ := a; obtain ⟨⟩ := b
  rintro ⟨rfl, rfl, rfl, rfl⟩; rfl

theorem pretty_texture : Code (Obj.TextureVertex.pretty (F := F)) (fun _ => True) := by
  refine ⟨fun {a b} _ _ => ?_, fun _ => ⟨_, _, rfl, by decide⟩⟩
  refine (pretty_struct (.cons (code_float.link trivial trivial)
    (.cons (code_float.link trivial trivial)
    (.one (code_float.link trivial trivial))))).imp ?_
  obtain ⟨⟩ := a; obtain ⟨⟩ := b
  rintro ⟨rfl, rfl, rfl⟩; rfl

theorem pretty_normal : Code (Obj.NormalVertex.pretty (F := F)) (fun _ => True) := by
  refine ⟨fun {a b} _ _ => ?_, fun _ => ⟨_, _, rfl, by decide⟩⟩
  refine (pretty_struct (.cons (code_float.link trivial trivial)
    (.cons (code_float.link trivial trivial)
    (.one (code_float.link trivial trivial))))).imp ?_
  obtain ⟨⟩ := a; obtain ⟨⟩ := b
  rintro ⟨rfl, rfl, rfl⟩; rfl

theorem pretty_color : Code (Mtl.Color.pretty (F := F)) (fun _ => True) := by
  refine ⟨fun {a b} _ _ => ?_, fun _ => ⟨_, _, rfl, by decide⟩⟩
  refine (pretty_struct (.cons (code_float.link trivial trivial)
    (.cons (code_float.link trivial trivial)
    (.one (code_float.link trivial trivial))))).imp ?_
  obtain ⟨⟩ := a; obtain ⟨⟩ := b
  rintro ⟨rfl, rfl, rfl⟩; rfl

theorem pretty_triple : Code (Obj.VTNTriple.pretty (F := F)) (fun _ => True) := by
  have hv := pretty_vertex (F := F)
  have ht := pretty_texture (F := F)
  have hn := pretty_normal (F := F)
  constructor
  · intro a b _ _
    cases a <;> cases b <;> refine pretty_tuple (by decide) (by decide) fun e => ?_ <;> first | exact absurd e (by decide) | skip
    · intro e
      obtain rfl := Rows.one (hv.link trivial trivial) e
      rfl
    · intro e
      obtain ⟨rfl, rfl⟩ := Rows.cons (hv.link trivial trivial) (.one (ht.link trivial trivial)) e
      rfl
    · intro e
      obtain ⟨rfl, rfl⟩ := Rows.cons (hv.link trivial trivial) (.one (hn.link trivial trivial)) e
      rfl
    · intro e
      obtain ⟨rfl, rfl, rfl⟩ := Rows.cons (hv.link trivial trivial)
        (.cons (ht.link trivial trivial) (.one (hn.link trivial trivial))) e
      rfl
  · intro a _
    cases a <;> exact ⟨_, _, rfl, by decide⟩

end

theorem pretty_index : Code Obj.VTNIndex.pretty (fun _ => True) := by
  have hu := code_usize
  constructor
  · intro a b _ _
    cases a <;> cases b <;> refine pretty_tuple (by decide) (by decide) fun e => ?_ <;> first | exact absurd e (by decide) | skip
    · intro e
      obtain rfl := Rows.one (hu.link trivial trivial) e
      rfl
    · intro e
      obtain ⟨rfl, rfl⟩ := Rows.cons (hu.link trivial trivial) (.one (hu.link trivial trivial)) e
      rfl
    · intro e
      obtain ⟨rfl, rfl⟩ := Rows.cons (hu.link trivial trivial) (.one (hu.link trivial trivial)) e
      rfl
    · intro e
      obtain ⟨rfl, rfl, rfl⟩ := Rows.cons (hu.link trivial trivial)
        (.cons (hu.link trivial trivial) (.one (hu.link trivial trivial))) e
      rfl
  · intro a _
    cases a <;> exact ⟨_, _, rfl, by decide⟩

theorem pretty_element : Code Obj.Element.pretty (fun _ => True) := by
  have hu := pretty_index
  constructor
  · intro a b _ _
    cases a <;> cases b <;> refine pretty_tuple (by decide) (by decide) fun e => ?_ <;> first | exact absurd e (by decide) | skip
    · intro e
      obtain rfl := Rows.one (hu.link trivial trivial) e
      rfl
    · intro e
      obtain ⟨rfl, rfl⟩ := Rows.cons (hu.link trivial trivial) (.one (hu.link trivial trivial)) e
      rfl
    · intro e
      obtain ⟨rfl, rfl, rfl⟩ := Rows.cons (hu.link trivial trivial)
        (.cons (hu.link trivial trivial) (.one (hu.link trivial trivial))) e
      rfl
  · intro a _
    cases a <;> exact ⟨_, _, rfl, by decide⟩

theorem pretty_group (plain : Char → Bool) : Code (Obj.Group.pretty plain) (fun g => Utf8 g.name) := by
  refine ⟨fun {a b} ha hb => ?_, fun _ => ⟨_, _, rfl, by decide⟩⟩
  refine pretty_tuple (by decide) (by decide) fun _ => .one (((code_string plain).link ha hb).imp ?_)
  obtain ⟨⟩ := a; obtain ⟨⟩ := b
  rintro rfl; rfl

theorem pretty_smoothing : Code Obj.SmoothingGroup.pretty (fun _ => True) := by
  refine ⟨fun {a b} ha hb => ?_, fun _ => ⟨_, _, rfl, by decide⟩⟩
  refine pretty_tuple (by decide) (by decide) fun _ => .one ((code_usize.link trivial trivial).imp ?_)
  obtain ⟨⟩ := a; obtain ⟨⟩ := b
  rintro rfl; rfl

theorem pretty_shape : Code Obj.ShapeEntry.pretty (fun _ => True) := by
  refine ⟨fun {a b} _ _ => ?_, fun _ => ⟨_, _, rfl, by decide⟩⟩
  refine (pretty_struct (.cons (code_usize.link trivial trivial)
    (.cons ((pretty_vec code_usize).link (fun _ _ => trivial) (fun _ _ => trivial))
    (.one (code_usize.link trivial trivial))))).imp ?_
  obtain ⟨⟩ := a; obtain ⟨⟩ := b
  rintro ⟨rfl, rfl, rfl⟩; rfl

theorem pretty_geometry (plain : Char → Bool) : Code (Obj.Geometry.pretty plain) (fun g => ∀ n ∈ g.material_name, Utf8 n) := by
  refine ⟨fun {a b} ha hb => ?_, fun _ => ⟨_, _, rfl, by decide⟩⟩
  refine (pretty_struct (.cons ((pretty_option (code_string plain)).link ha hb)
    (.one ((pretty_vec code_usize).link (fun _ _ => trivial) (fun _ _ => trivial))))).imp ?_
  obtain ⟨⟩ := a; obtain ⟨⟩ := b
  rintro ⟨rfl, rfl⟩; rfl

theorem pretty_shape_data (plain : Char → Bool) : Code (Obj.Shape.pretty plain) (fun s => ∀ g ∈ s.groups, Utf8 g.name) := by
  refine ⟨fun {a b} ha hb => ?_, fun _ => ⟨_, _, rfl, by decide⟩⟩
  refine (pretty_struct (.cons (pretty_element.link trivial trivial)
    (.cons ((pretty_vec (pretty_group plain)).link ha hb)
    (.one ((pretty_vec pretty_smoothing).link (fun _ _ => trivial) (fun _ _ => trivial)))))).imp ?_
  obtain ⟨⟩ := a; obtain ⟨⟩ := b
  rintro ⟨rfl, rfl, rfl⟩; rfl

theorem pretty_error {K : Type} (plain : Char → Bool) {kind : K → Text} (h : Code kind (fun _ => True)) :
    Code (ParseError.pretty plain kind) (fun e => Utf8 e.message) := by
  refine ⟨fun {a b} ha hb => ?_, fun _ => ⟨_, _, rfl, by decide⟩⟩
  refine (pretty_struct (.cons (code_usize.link trivial trivial)
    (.cons (h.link trivial trivial)
    (.one ((code_string plain).link ha hb))))).imp ?_
  obtain ⟨⟩ := a; obtain ⟨⟩ := b
  rintro ⟨rfl, rfl, rfl⟩; rfl

section
variable {F : Type} [FloatSem F] [FloatDebug F] [LawfulDebug F]

theorem pretty_object (plain : Char → Bool) : Code (Obj.Object.pretty (F := F) plain) (fun o => ∀ b ∈ objectStrings o, Utf8 b) := by
  refine ⟨fun {a b} ha hb => ?_, fun _ => ⟨_, _, rfl, by decide⟩⟩
  have hname : ∀ o : Obj.Object F, (∀ b ∈ objectStrings o, Utf8 b) → Utf8 o.name := fun o h => h _ List.mem_cons_self
  have hgroup : ∀ o : Obj.Object F, (∀ b ∈ objectStrings o, Utf8 b) → ∀ g ∈ o.group_set, Utf8 g.name := fun o h g hg =>
    h _ (List.mem_cons_of_mem _ (List.mem_append_left _ (List.mem_map_of_mem hg)))
  have hgeo : ∀ o : Obj.Object F, (∀ b ∈ objectStrings o, Utf8 b) → ∀ g ∈ o.geometry_set, ∀ n ∈ g.material_name, Utf8 n :=
    fun o h g hg n hn =>
      h _ (List.mem_cons_of_mem _ (List.mem_append_right _ (List.mem_filterMap.mpr ⟨g, hg, hn⟩)))
  refine (pretty_struct (.cons ((code_string plain).link (hname a ha) (hname b hb))
    (.cons ((pretty_vec pretty_vertex).link (fun _ _ => trivial) (fun _ _ => trivial))
    (.cons ((pretty_vec pretty_texture).link (fun _ _ => trivial) (fun _ _ => trivial))
    (.cons ((pretty_vec pretty_normal).link (fun _ _ => trivial) (fun _ _ => trivial))
    (.cons ((pretty_vec (pretty_group plain)).link (hgroup a ha) (hgroup b hb))
    (.cons ((pretty_vec pretty_smoothing).link (fun _ _ => trivial) (fun _ _ => trivial))
    (.cons ((pretty_vec pretty_element).link (fun _ _ => trivial) (fun _ _ => trivial))
    (.cons ((pretty_vec pretty_shape).link (fun _ _ => trivial) (fun _ _ => trivial))
    (.one ((pretty_vec (pretty_geometry plain)).link (hgeo a ha) (hgeo b hb)))))))))))).imp ?_
  obtain ⟨⟩ := a; obtain ⟨⟩ := b
  rintro ⟨rfl, rfl, rfl, rfl, rfl, rfl, rfl, rfl, rfl⟩; rfl

theorem pretty_set (plain : Char → Bool) : Code (Obj.ObjectSet.pretty (F := F) plain) (fun r => ∀ b ∈ setStrings r, Utf8 b) := by
  refine ⟨fun {a b} ha hb => ?_, fun _ => ⟨_, _, rfl, by decide⟩⟩
  have hlib : ∀ r : Obj.ObjectSet F, (∀ b ∈ setStrings r, Utf8 b) → ∀ b ∈ r.material_libraries, Utf8 b := fun r h b hb =>
    h b (List.mem_append_left _ hb)
  have hobj : ∀ r : Obj.ObjectSet F, (∀ b ∈ setStrings r, Utf8 b) → ∀ o ∈ r.objects, ∀ b ∈ objectStrings o, Utf8 b :=
    fun r h o ho b hb => h b (List.mem_append_right _ (List.mem_flatMap.mpr ⟨o, ho, hb⟩))
  refine (pretty_struct (.cons ((pretty_vec (code_string plain)).link (hlib a ha) (hlib b hb))
    (.one ((pretty_vec (pretty_object plain)).link (hobj a ha) (hobj b hb))))).imp ?_
  obtain ⟨⟩ := a; obtain ⟨⟩ := b
  rintro ⟨rfl, rfl⟩; rfl

theorem pretty_material (plain : Char → Bool) :
    Code (Mtl.Material.pretty (F := F) plain) (fun m => ∀ b ∈ materialStrings m, Utf8 b) := by
  refine ⟨fun {a b} ha hb => ?_, fun _ => ⟨_, _, rfl, by decide⟩⟩
  have name := fun (m : Mtl.Material F) (h : ∀ b ∈ materialStrings m, Utf8 b) => h m.name List.mem_cons_self
  have maps : ∀ m : Mtl.Material F, (∀ b ∈ materialStrings m, Utf8 b) → ∀ s ∈ [m.map_ambient, m.map_diffuse, m.map_specular,
      m.map_emissive, m.map_specular_exponent, m.map_bump, m.map_displacement, m.map_dissolve, m.map_decal], ∀ b ∈ s, Utf8 b :=
    fun m h s hs b hb => h b (List.mem_cons_of_mem _ (List.mem_filterMap.mpr ⟨s, hs, hb⟩))
  have ma := maps a ha
  have mb := maps b hb
  have num : ∀ x y : F, Link (Debug.float x) (Debug.float y) (x = y) := fun x y => code_float.link trivial trivial
  have col : ∀ x y : Mtl.Color F, Link x.pretty y.pretty (x = y) := fun x y => pretty_color.link trivial trivial
  refine (pretty_struct (.cons ((code_string plain).link (name a ha) (name b hb))
    (.cons (col _ _) (.cons (col _ _) (.cons (col _ _) (.cons (col _ _)
    (.cons (num _ _) (.cons (num _ _)
    (.cons ((pretty_option code_float).link (fun _ _ => trivial) (fun _ _ => trivial))
    (.cons (code_model.link trivial trivial)
    (.cons ((pretty_option (code_string plain)).link (ma _ (by simp)) (mb _ (by simp)))
    (.cons ((pretty_option (code_string plain)).link (ma _ (by simp)) (mb _ (by simp)))
    (.cons ((pretty_option (code_string plain)).link (ma _ (by simp)) (mb _ (by simp)))
    (.cons ((pretty_option (code_string plain)).link (ma _ (by simp)) (mb _ (by simp)))
    (.cons ((pretty_option (code_string plain)).link (ma _ (by simp)) (mb _ (by simp)))
    (.cons ((pretty_option (code_string plain)).link (ma _ (by simp)) (mb _ (by simp)))
    (.cons ((pretty_option (code_string plain)).link (ma _ (by simp)) (mb _ (by simp)))
    (.cons ((pretty_option (code_string plain)).link (ma _ (by simp)) (mb _ (by simp)))
    (.one ((pretty_option (code_string plain)).link (ma _ (by simp)) (mb _ (by simp)))))))))))))))))))))).imp ?_
  obtain ⟨⟩ := a; obtain ⟨⟩ := b
  rintro ⟨rfl, rfl, rfl, rfl, rfl, rfl, rfl, rfl, rfl, rfl, rfl, rfl, rfl, rfl, rfl, rfl, rfl, rfl⟩; rfl

theorem pretty_materials (plain : Char → Bool) :
    Code (Mtl.MaterialSet.pretty (F := F) plain) (fun r => ∀ b ∈ r.materials.flatMap materialStrings, Utf8 b) := by
  refine ⟨fun {a b} ha hb => ?_, fun _ => ⟨_, _, rfl, by decide⟩⟩
  have h : ∀ r : Mtl.MaterialSet F, (∀ b ∈ r.materials.flatMap materialStrings, Utf8 b) →
      ∀ m ∈ r.materials, ∀ b ∈ materialStrings m, Utf8 b := fun r h m hm b hb => h b (List.mem_flatMap.mpr ⟨m, hm, hb⟩)
  refine (pretty_struct (.one ((pretty_vec (pretty_material plain)).link (h a ha) (h b hb)))).imp ?_
  obtain ⟨⟩ := a; obtain ⟨⟩ := b
  rintro rfl; rfl

/-! ## The theorems -/

/-- **C107** Sets of objects with the same `{:#?}` text are the same, whatever characters are printed as they are. -/
theorem C107_objects (plain : Char → Bool) {r r' : Obj.ObjectSet F} (h : ∀ b ∈ setStrings r, Utf8 b)
    (h' : ∀ b ∈ setStrings r', Utf8 b) (e : r.pretty plain = r'.pretty plain) : r = r' :=
  (pretty_set plain).injective h h' e

/-- **C107** So are objects. -/
theorem C107_object (plain : Char → Bool) {o o' : Obj.Object F} (h : ∀ b ∈ objectStrings o, Utf8 b)
    (h' : ∀ b ∈ objectStrings o', Utf8 b) (e : o.pretty plain = o'.pretty plain) : o = o' :=
  (pretty_object plain).injective h h' e

/-- **C107** So are sets of materials. -/
theorem C107_materials (plain : Char → Bool) {r r' : Mtl.MaterialSet F}
    (h : ∀ b ∈ r.materials.flatMap materialStrings, Utf8 b) (h' : ∀ b ∈ r'.materials.flatMap materialStrings, Utf8 b)
    (e : r.pretty plain = r'.pretty plain) : r = r' :=
  (pretty_materials plain).injective h h' e

/-- **C107** Two results of the OBJ parser with the same `{:#?}` text are the same. -/
theorem C107_obj_results (plain : Char → Bool) {cfg cfg' : Obj.Cfg} {s s' : List Char} (hlen : (encode s).length < 2 ^ 63)
    (hlen' : (encode s').length < 2 ^ 63) {r r' : Obj.ObjectSet F} (h : Obj.parse cfg (encode s) = .ok r)
    (h' : Obj.parse cfg' (encode s') = .ok r') (e : r.pretty plain = r'.pretty plain) : r = r' :=
  C107_objects plain (C103_objects_utf8 hlen h) (C103_objects_utf8 hlen' h') e

/-- **C107** Two results of the MTL parser with the same `{:#?}` text are the same. -/
theorem C107_mtl_results (plain : Char → Bool) {s s' : List Char} {r r' : Mtl.MaterialSet F}
    (h : Mtl.parse (encode s) = .ok r) (h' : Mtl.parse (encode s') = .ok r') (e : r.pretty plain = r'.pretty plain) :
    r = r' :=
  C107_materials plain (C103_materials_utf8 h) (C103_materials_utf8 h') e

/-- **C107** So are vertices, texture vertices, normals, colors and corners. -/
theorem C107_coordinates :
    (∀ a b : Obj.Vertex F, a.pretty = b.pretty → a = b) ∧ (∀ a b : Obj.TextureVertex F, a.pretty = b.pretty → a = b) ∧
      (∀ a b : Obj.NormalVertex F, a.pretty = b.pretty → a = b) ∧ (∀ a b : Mtl.Color F, a.pretty = b.pretty → a = b) ∧
      ∀ a b : Obj.VTNTriple F, a.pretty = b.pretty → a = b :=
  ⟨fun _ _ => pretty_vertex.injective trivial trivial, fun _ _ => pretty_texture.injective trivial trivial,
    fun _ _ => pretty_normal.injective trivial trivial, fun _ _ => pretty_color.injective trivial trivial,
    fun _ _ => pretty_triple.injective trivial trivial⟩

end

/-- **C107** So are indices, elements, smoothing groups, shape entries and shapes. -/
theorem C107_parts (plain : Char → Bool) :
    (∀ a b : Obj.VTNIndex, a.pretty = b.pretty → a = b) ∧ (∀ a b : Obj.Element, a.pretty = b.pretty → a = b) ∧
      (∀ a b : Obj.SmoothingGroup, a.pretty = b.pretty → a = b) ∧
      (∀ a b : Obj.ShapeEntry, a.pretty = b.pretty → a = b) ∧
      ∀ a b : Obj.Shape, (∀ g ∈ a.groups, Utf8 g.name) → (∀ g ∈ b.groups, Utf8 g.name) →
        a.pretty plain = b.pretty plain → a = b :=
  ⟨fun _ _ => pretty_index.injective trivial trivial, fun _ _ => pretty_element.injective trivial trivial,
    fun _ _ => pretty_smoothing.injective trivial trivial, fun _ _ => pretty_shape.injective trivial trivial,
    fun _ _ => (pretty_shape_data plain).injective⟩

/-- **C107** Among the errors of both parsers, those with the same `{:#?}` text are the same. -/
theorem C107_errors (plain : Char → Bool) :
    (∀ a b : ParseError Obj.ErrorKind, Utf8 a.message → Utf8 b.message →
      a.pretty plain Obj.ErrorKind.debug = b.pretty plain Obj.ErrorKind.debug → a = b) ∧
    ∀ a b : ParseError Mtl.ErrorKind, Utf8 a.message → Utf8 b.message →
      a.pretty plain Mtl.ErrorKind.debug = b.pretty plain Mtl.ErrorKind.debug → a = b :=
  ⟨fun _ _ => (pretty_error plain code_kind).injective, fun _ _ => (pretty_error plain code_mtl_kind).injective⟩

/-! ## Instances -/

example : (Obj.Element.Line (.VT 0 1) (.V 30)).pretty =
    c!"Line(\n    VT(\n        0,\n        1,\n    ),\n    V(\n        30,\n    ),\n)" := by decide +kernel

example : (Obj.Geometry.mk (some [97]) []).pretty printable =
    c!"Geometry {\n    material_name: Some(\n        \"a\",\n    ),\n    shapes: [],\n}" := by decide +kernel

example : (Obj.ShapeEntry.mk 7 [0, 1] 0).pretty =
    c!"ShapeEntry {\n    element: 7,\n    groups: [\n        0,\n        1,\n    ],\n    smoothing_group: 0,\n}" := by
  decide +kernel

end Verif.Props
