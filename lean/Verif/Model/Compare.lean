import Verif.Model.Obj
import Verif.Model.Mtl

/-!
# The derived comparisons

`#[derive(PartialEq)]` compares structures field by field and enumerations by variant and then
field by field; `Vec`s are equal if they have the same length and equal elements; `String`s,
`usize`s and the types without floating point numbers are compared exactly, which is the
equality of the model.  The comparison of two `f64`s is a parameter.
-/

namespace Verif

/-- `==` of `f64`. -/
class FloatEq (F : Type) where
  feq : F → F → Bool

/-- `partial_cmp` of `f64`. -/
class FloatCmp (F : Type) where
  fcmp : F → F → Option Ordering

/-- `==` of `Vec<T>` (Rust std, `SlicePartialEq::equal`): first the lengths, then the elements
in order. -/
def vecEq {α : Type} (eq : α → α → Bool) (a b : List α) : Bool :=
  a.length == b.length && (a.zip b).all fun p => eq p.1 p.2

/-- `==` of `Option<T>` (Rust std). -/
def optionEq {α : Type} (eq : α → α → Bool) : Option α → Option α → Bool
  | none, none => true
  | some a, some b => eq a b
  | _, _ => false

namespace Obj

section
variable {F : Type} [FloatEq F]
open FloatEq

/-- `derive(PartialEq)` of `Vertex` (obj.rs:119-130). -/
def Vertex.eq (a b : Vertex F) : Bool := feq a.x b.x && feq a.y b.y && feq a.z b.z && feq a.w b.w

/-- `derive(PartialEq)` of `TextureVertex` (obj.rs:140-148). -/
def TextureVertex.eq (a b : TextureVertex F) : Bool := feq a.u b.u && feq a.v b.v && feq a.w b.w

/-- `derive(PartialEq)` of `NormalVertex` (obj.rs:158-166). -/
def NormalVertex.eq (a b : NormalVertex F) : Bool := feq a.x b.x && feq a.y b.y && feq a.z b.z

/-- `derive(PartialEq)` of `VTNTriple` (obj.rs:376-382); references are compared by what they
refer to. -/
def VTNTriple.eq : VTNTriple F → VTNTriple F → Bool
  | .V a, .V a' => a.eq a'
  | .VT a b, .VT a' b' => a.eq a' && b.eq b'
  | .VN a b, .VN a' b' => a.eq a' && b.eq b'
  | .VTN a b c, .VTN a' b' c' => a.eq a' && b.eq b' && c.eq c'
  | _, _ => false

/-- `derive(PartialEq)` of `Object` (obj.rs:387-408). -/
def Object.eq (a b : Object F) : Bool :=
  a.name == b.name &&
  vecEq Vertex.eq a.vertex_set b.vertex_set &&
  vecEq TextureVertex.eq a.texture_vertex_set b.texture_vertex_set &&
  vecEq NormalVertex.eq a.normal_vertex_set b.normal_vertex_set &&
  a.group_set == b.group_set &&
  a.smoothing_group_set == b.smoothing_group_set &&
  a.element_set == b.element_set &&
  a.shape_set == b.shape_set &&
  a.geometry_set == b.geometry_set

/-- `derive(PartialEq)` of `ObjectSet` (obj.rs:568-574). -/
def ObjectSet.eq (a b : ObjectSet F) : Bool :=
  a.material_libraries == b.material_libraries && vecEq Object.eq a.objects b.objects

end

end Obj

namespace Mtl

section
variable {F : Type} [FloatEq F]
open FloatEq

/-- `derive(PartialEq)` of `Color` (mtl.rs:76-84). -/
def Color.eq (a b : Color F) : Bool := feq a.r b.r && feq a.g b.g && feq a.b b.b

/-- `derive(PartialEq)` of `Material` (mtl.rs:122-182). -/
def Material.eq (a b : Material F) : Bool :=
  a.name == b.name &&
  a.color_ambient.eq b.color_ambient &&
  a.color_diffuse.eq b.color_diffuse &&
  a.color_specular.eq b.color_specular &&
  a.color_emissive.eq b.color_emissive &&
  feq a.specular_exponent b.specular_exponent &&
  feq a.dissolve b.dissolve &&
  optionEq feq a.optical_density b.optical_density &&
  a.illumination_model == b.illumination_model &&
  a.map_ambient == b.map_ambient &&
  a.map_diffuse == b.map_diffuse &&
  a.map_specular == b.map_specular &&
  a.map_emissive == b.map_emissive &&
  a.map_specular_exponent == b.map_specular_exponent &&
  a.map_bump == b.map_bump &&
  a.map_displacement == b.map_displacement &&
  a.map_dissolve == b.map_dissolve &&
  a.map_decal == b.map_decal

/-- `derive(PartialEq)` of `MaterialSet` (mtl.rs:211-214). -/
def MaterialSet.eq (a b : MaterialSet F) : Bool := vecEq Material.eq a.materials b.materials

end

/-- `derive(PartialOrd)` of `Color` (mtl.rs:76-84): the first field that does not compare as
equal decides. -/
def Color.partial_cmp {F : Type} [FloatCmp F] (a b : Color F) : Option Ordering :=
  match FloatCmp.fcmp a.r b.r with
  | some .eq =>
    match FloatCmp.fcmp a.g b.g with
    | some .eq => FloatCmp.fcmp a.b b.b
    | c => c
  | c => c

/-- The discriminant of an illumination model (mtl.rs:103-111). -/
def IlluminationModel.discriminant : IlluminationModel → Nat
  | .Ambient => 0
  | .AmbientDiffuse => 1
  | .AmbientDiffuseSpecular => 2

/-- `derive(Ord)` of `IlluminationModel` (mtl.rs:103-111): by discriminant. -/
def IlluminationModel.cmp (a b : IlluminationModel) : Ordering := compare a.discriminant b.discriminant

end Mtl

end Verif
