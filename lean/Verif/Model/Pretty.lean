import Verif.Model.Debug
import Verif.Model.Clone

/-!
# Model of `{:#?}`

A function of this file returns the characters of `format!("{:#?}", x)`: the derived `Debug` implementations with the
alternate flag, by which every field stands on lines of its own.  Unit variants, `usize`, `f64` and `String` are
printed as with `{:?}`.
-/

namespace Verif

namespace Pretty

/-- What `core::fmt::builders::PadAdapter` (Rust std) passes on: four spaces before the first character of each line.
`newline`: whether the next character is the first of a line. -/
def padFrom (newline : Bool) : Text → Text
  | [] => []
  | c :: s => (if newline then c!"    " else []) ++ c :: padFrom (c == '\n') s

/-- A value written through a new `PadAdapter`, with the comma and the end of line behind it. -/
def entry (value : Text) : Text := padFrom true (value ++ c!",\n")

/-- `Formatter::debug_struct` (Rust std, `core::fmt::builders::DebugStruct`), for a struct with a field. -/
def struct (name : Text) (fields : List (Text × Text)) : Text :=
  name ++ c!" {\n" ++ fields.flatMap (fun f => entry (f.1 ++ c!": " ++ f.2)) ++ c!"}"

/-- `Formatter::debug_tuple` (Rust std, `core::fmt::builders::DebugTuple`), for a tuple with a field. -/
def tuple (name : Text) (values : List Text) : Text := name ++ c!"(\n" ++ values.flatMap entry ++ c!")"

/-- `{:#?}` of `Vec<T>` (Rust std, `core::fmt::builders::DebugList`). -/
def vec {T : Type} (value : T → Text) (l : List T) : Text :=
  c!"[" ++ (if l.isEmpty then [] else c!"\n") ++ l.flatMap (fun a => entry (value a)) ++ c!"]"

/-- `{:#?}` of `Option<T>` (derived in Rust std, `core::option`). -/
def option {T : Type} (value : T → Text) : Option T → Text
  | none => c!"None"
  | some a => tuple c!"Some" [value a]

end Pretty

open Verif.Pretty
open Debug (usize string float)

/-- `{:#?}` of `ParseError` (obj.rs:627-635, mtl.rs:239-247). -/
def ParseError.pretty {K : Type} (plain : Char → Bool) (kind : K → Text) (s : ParseError K) : Text :=
  struct c!"ParseError"
    [(c!"line_number", usize s.line_number), (c!"kind", kind s.kind), (c!"message", string plain s.message)]

namespace Obj

section
variable {F : Type} [FloatDebug F]

/-- `{:#?}` of `Vertex` (obj.rs:119-130). -/
def Vertex.pretty (s : Vertex F) : Text :=
  struct c!"Vertex" [(c!"x", float s.x), (c!"y", float s.y), (c!"z", float s.z), (c!"w", float s.w)]

/-- `{:#?}` of `TextureVertex` (obj.rs:140-148). -/
def TextureVertex.pretty (s : TextureVertex F) : Text :=
  struct c!"TextureVertex" [(c!"u", float s.u), (c!"v", float s.v), (c!"w", float s.w)]

/-- `{:#?}` of `NormalVertex` (obj.rs:158-166). -/
def NormalVertex.pretty (s : NormalVertex F) : Text :=
  struct c!"NormalVertex" [(c!"x", float s.x), (c!"y", float s.y), (c!"z", float s.z)]

/-- `{:#?}` of `VTNTriple` (obj.rs:376-382); a reference is printed as the value. -/
def VTNTriple.pretty : VTNTriple F → Text
  | .V v => tuple c!"V" [v.pretty]
  | .VT v vt => tuple c!"VT" [v.pretty, vt.pretty]
  | .VN v vn => tuple c!"VN" [v.pretty, vn.pretty]
  | .VTN v vt vn => tuple c!"VTN" [v.pretty, vt.pretty, vn.pretty]

end

/-- `{:#?}` of `VTNIndex` (obj.rs:183-189). -/
def VTNIndex.pretty : VTNIndex → Text
  | .V v => tuple c!"V" [usize v]
  | .VT v vt => tuple c!"VT" [usize v, usize vt]
  | .VN v vn => tuple c!"VN" [usize v, usize vn]
  | .VTN v vt vn => tuple c!"VTN" [usize v, usize vt, usize vn]

/-- `{:#?}` of `Element` (obj.rs:278-283). -/
def Element.pretty : Element → Text
  | .Point a => tuple c!"Point" [a.pretty]
  | .Line a b => tuple c!"Line" [a.pretty, b.pretty]
  | .Face a b c => tuple c!"Face" [a.pretty, b.pretty, c.pretty]

/-- `{:#?}` of `Group` (obj.rs:305-306). -/
def Group.pretty (plain : Char → Bool) (s : Group) : Text := tuple c!"Group" [string plain s.name]

/-- `{:#?}` of `SmoothingGroup` (obj.rs:323-324). -/
def SmoothingGroup.pretty (s : SmoothingGroup) : Text := tuple c!"SmoothingGroup" [usize s.number]

/-- `{:#?}` of `ShapeEntry` (obj.rs:338-346). -/
def ShapeEntry.pretty (s : ShapeEntry) : Text :=
  struct c!"ShapeEntry" [(c!"element", usize s.element), (c!"groups", vec usize s.groups),
    (c!"smoothing_group", usize s.smoothing_group)]

/-- `{:#?}` of `Shape` (obj.rs:350-358). -/
def Shape.pretty (plain : Char → Bool) (s : Shape) : Text :=
  struct c!"Shape" [(c!"element", s.element.pretty), (c!"groups", vec (Group.pretty plain) s.groups),
    (c!"smoothing_groups", vec SmoothingGroup.pretty s.smoothing_groups)]

/-- `{:#?}` of `Geometry` (obj.rs:366-373). -/
def Geometry.pretty (plain : Char → Bool) (s : Geometry) : Text :=
  struct c!"Geometry" [(c!"material_name", option (string plain) s.material_name), (c!"shapes", vec usize s.shapes)]

section
variable {F : Type} [FloatDebug F]

/-- `{:#?}` of `Object` (obj.rs:387-408). -/
def Object.pretty (plain : Char → Bool) (s : Object F) : Text :=
  struct c!"Object" [(c!"name", string plain s.name),
    (c!"vertex_set", vec Vertex.pretty s.vertex_set),
    (c!"texture_vertex_set", vec TextureVertex.pretty s.texture_vertex_set),
    (c!"normal_vertex_set", vec NormalVertex.pretty s.normal_vertex_set),
    (c!"group_set", vec (Group.pretty plain) s.group_set),
    (c!"smoothing_group_set", vec SmoothingGroup.pretty s.smoothing_group_set),
    (c!"element_set", vec Element.pretty s.element_set),
    (c!"shape_set", vec ShapeEntry.pretty s.shape_set),
    (c!"geometry_set", vec (Geometry.pretty plain) s.geometry_set)]

/-- `{:#?}` of `ObjectSet` (obj.rs:568-574). -/
def ObjectSet.pretty (plain : Char → Bool) (s : ObjectSet F) : Text :=
  struct c!"ObjectSet" [(c!"material_libraries", vec (string plain) s.material_libraries),
    (c!"objects", vec (Object.pretty plain) s.objects)]

end

end Obj

namespace Mtl

section
variable {F : Type} [FloatDebug F]

/-- `{:#?}` of `Color` (mtl.rs:76-84). -/
def Color.pretty (s : Color F) : Text :=
  struct c!"Color" [(c!"r", float s.r), (c!"g", float s.g), (c!"b", float s.b)]

/-- `{:#?}` of `Material` (mtl.rs:122-182). -/
def Material.pretty (plain : Char → Bool) (s : Material F) : Text :=
  struct c!"Material" [(c!"name", string plain s.name),
    (c!"color_ambient", s.color_ambient.pretty),
    (c!"color_diffuse", s.color_diffuse.pretty),
    (c!"color_specular", s.color_specular.pretty),
    (c!"color_emissive", s.color_emissive.pretty),
    (c!"specular_exponent", float s.specular_exponent),
    (c!"dissolve", float s.dissolve),
    (c!"optical_density", option float s.optical_density),
    (c!"illumination_model", s.illumination_model.debug),
    (c!"map_ambient", option (string plain) s.map_ambient),
    (c!"map_diffuse", option (string plain) s.map_diffuse),
    (c!"map_specular", option (string plain) s.map_specular),
    (c!"map_emissive", option (string plain) s.map_emissive),
    (c!"map_specular_exponent", option (string plain) s.map_specular_exponent),
    (c!"map_bump", option (string plain) s.map_bump),
    (c!"map_displacement", option (string plain) s.map_displacement),
    (c!"map_dissolve", option (string plain) s.map_dissolve),
    (c!"map_decal", option (string plain) s.map_decal)]

/-- `{:#?}` of `MaterialSet` (mtl.rs:211-214). -/
def MaterialSet.pretty (plain : Char → Bool) (s : MaterialSet F) : Text :=
  struct c!"MaterialSet" [(c!"materials", vec (Material.pretty plain) s.materials)]

end

end Mtl

end Verif
