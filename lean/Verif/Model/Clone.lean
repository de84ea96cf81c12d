import Verif.Model.Obj
import Verif.Model.Mtl
import Verif.Model.Debug

/-!
# The derived `Clone` and `Hash` implementations, and `struct Shape`

`derive(Clone)` of a type that is also `Copy` and has no type parameters expands to `*self`, the value
itself; of any other type it calls `clone` field by field. `clone` of `usize`, `f64` and of a reference
returns the value.
-/

namespace Verif

namespace Clone

/-- `clone` of `Vec<T>` (Rust std, `<[T]>::to_vec`): a new vector, the copy of every element pushed in order. -/
def vec {α : Type} (clone : α → α) : List α → List α
  | [] => []
  | a :: as => clone a :: vec clone as

/-- `clone` of `String` (Rust std): `clone` of its `Vec<u8>`. -/
def string (s : Bytes) : Bytes := vec (fun b => b) s

/-- `clone` of `Option<T>` (Rust std). -/
def option {α : Type} (clone : α → α) : Option α → Option α
  | none => none
  | some a => some (clone a)

end Clone

open Clone

/-- `#[derive(Clone)]` of `Lexer` (lexer.rs:5-13); the stream is a reference. -/
def Lexer.clone (s : Lexer) : Lexer where
  current_line_number := s.current_line_number
  stream_position := s.stream_position
  stream := s.stream

/-- `#[derive(Clone)]` of `PeekableLexer` (lexer.rs:144-150); the tokens in the cache are references. -/
def PeekableLexer.clone (s : PeekableLexer) : PeekableLexer where
  inner := s.inner.clone
  cache := option (option fun t => t) s.cache

/-- `#[derive(Clone)]` of `obj::ParseError` (obj.rs:627-635) and `mtl::ParseError` (mtl.rs:239-247). -/
def ParseError.clone {K : Type} (kind : K → K) (s : ParseError K) : ParseError K where
  line_number := s.line_number
  kind := kind s.kind
  message := string s.message

namespace Obj

/-- `#[derive(Clone)]` of `obj::Parser` (obj.rs:663-669). -/
def Parser.clone (s : PState PeekableLexer) : PState PeekableLexer where
  line_number := s.line_number
  lexer := s.lexer.clone

/-- `#[derive(Clone)]` of the `Copy` type `Vertex` (obj.rs:119). -/
def Vertex.clone {F : Type} (s : Vertex F) : Vertex F := s

/-- `#[derive(Clone)]` of the `Copy` type `TextureVertex` (obj.rs:140). -/
def TextureVertex.clone {F : Type} (s : TextureVertex F) : TextureVertex F := s

/-- `#[derive(Clone)]` of the `Copy` type `NormalVertex` (obj.rs:158). -/
def NormalVertex.clone {F : Type} (s : NormalVertex F) : NormalVertex F := s

/-- `#[derive(Clone)]` of the `Copy` type `VTNIndex` (obj.rs:183). -/
def VTNIndex.clone (s : VTNIndex) : VTNIndex := s

/-- `#[derive(Clone)]` of the `Copy` type `Element` (obj.rs:278). -/
def Element.clone (s : Element) : Element := s

/-- `#[derive(Clone)]` of `Group` (obj.rs:305-306). -/
def Group.clone (s : Group) : Group where
  name := string s.name

/-- `#[derive(Clone)]` of the `Copy` type `SmoothingGroup` (obj.rs:323). -/
def SmoothingGroup.clone (s : SmoothingGroup) : SmoothingGroup := s

/-- `#[derive(Clone)]` of `ShapeEntry` (obj.rs:338-346). -/
def ShapeEntry.clone (s : ShapeEntry) : ShapeEntry where
  element := s.element
  groups := vec (fun n => n) s.groups
  smoothing_group := s.smoothing_group

/-- `struct Shape` (obj.rs:351-358); no function of the crate makes or takes one. -/
structure Shape where
  element : Element
  groups : List Group
  smoothing_groups : List SmoothingGroup
deriving DecidableEq, Repr

/-- `#[derive(Clone)]` of `Shape` (obj.rs:350-358). -/
def Shape.clone (s : Shape) : Shape where
  element := s.element.clone
  groups := vec Group.clone s.groups
  smoothing_groups := vec SmoothingGroup.clone s.smoothing_groups

/-- `#[derive(Debug)]` of `Shape` (obj.rs:350-358). -/
def Shape.debug (plain : Char → Bool) (s : Shape) : Text :=
  Debug.struct c!"Shape" [(c!"element", s.element.debug), (c!"groups", Debug.vec (Group.debug plain) s.groups),
    (c!"smoothing_groups", Debug.vec SmoothingGroup.debug s.smoothing_groups)]

/-- `#[derive(Clone)]` of `Geometry` (obj.rs:366-373). -/
def Geometry.clone (s : Geometry) : Geometry where
  material_name := option string s.material_name
  shapes := vec (fun n => n) s.shapes

/-- `#[derive(Clone)]` of `VTNTriple` (obj.rs:376-382), which is `Copy`: the references are copied. -/
def VTNTriple.clone {F : Type} : VTNTriple F → VTNTriple F
  | .V v => .V v
  | .VT v vt => .VT v vt
  | .VN v vn => .VN v vn
  | .VTN v vt vn => .VTN v vt vn

/-- `#[derive(Clone)]` of `Object` (obj.rs:387-408). -/
def Object.clone {F : Type} (s : Object F) : Object F where
  name := string s.name
  vertex_set := vec Vertex.clone s.vertex_set
  texture_vertex_set := vec TextureVertex.clone s.texture_vertex_set
  normal_vertex_set := vec NormalVertex.clone s.normal_vertex_set
  group_set := vec Group.clone s.group_set
  smoothing_group_set := vec SmoothingGroup.clone s.smoothing_group_set
  element_set := vec Element.clone s.element_set
  shape_set := vec ShapeEntry.clone s.shape_set
  geometry_set := vec Geometry.clone s.geometry_set

/-- `#[derive(Clone)]` of `ObjectSet` (obj.rs:568-574). -/
def ObjectSet.clone {F : Type} (s : ObjectSet F) : ObjectSet F where
  material_libraries := vec string s.material_libraries
  objects := vec Object.clone s.objects

/-- `#[derive(Clone)]` of `obj::ErrorKind` (obj.rs:594-623). -/
def ErrorKind.clone : ErrorKind → ErrorKind
  | .EndOfFile => .EndOfFile
  | .ExpectedTagStatement => .ExpectedTagStatement
  | .ExpectedFloat => .ExpectedFloat
  | .ExpectedInteger => .ExpectedInteger
  | .ExpectedVTNIndex => .ExpectedVTNIndex
  | .VTNIndexOutOfRange => .VTNIndexOutOfRange
  | .EveryFaceElementMustHaveAtLeastThreeVertices => .EveryFaceElementMustHaveAtLeastThreeVertices
  | .EveryVTNIndexMustHaveTheSameFormForAGivenElement => .EveryVTNIndexMustHaveTheSameFormForAGivenElement
  | .InvalidObjectStatement => .InvalidObjectStatement
  | .ElementMustBeAPointLineOrFace => .ElementMustBeAPointLineOrFace
  | .SmoothingGroupNameMustBeOffOrInteger => .SmoothingGroupNameMustBeOffOrInteger
  | .SmoothingGroupDeclarationHasNoName => .SmoothingGroupDeclarationHasNoName
  | .MaterialStatementHasNoName => .MaterialStatementHasNoName

end Obj

namespace Mtl

/-- `#[derive(Clone)]` of the `Copy` type `Color` (mtl.rs:76). -/
def Color.clone {F : Type} (s : Color F) : Color F := s

/-- `#[derive(Clone)]` of the `Copy` type `IlluminationModel` (mtl.rs:103). -/
def IlluminationModel.clone (s : IlluminationModel) : IlluminationModel := s

/-- `#[derive(Clone)]` of `Material` (mtl.rs:122-182). -/
def Material.clone {F : Type} (s : Material F) : Material F where
  name := string s.name
  color_ambient := s.color_ambient.clone
  color_diffuse := s.color_diffuse.clone
  color_specular := s.color_specular.clone
  color_emissive := s.color_emissive.clone
  specular_exponent := s.specular_exponent
  dissolve := s.dissolve
  optical_density := option (fun x => x) s.optical_density
  illumination_model := s.illumination_model.clone
  map_ambient := option string s.map_ambient
  map_diffuse := option string s.map_diffuse
  map_specular := option string s.map_specular
  map_emissive := option string s.map_emissive
  map_specular_exponent := option string s.map_specular_exponent
  map_bump := option string s.map_bump
  map_displacement := option string s.map_displacement
  map_dissolve := option string s.map_dissolve
  map_decal := option string s.map_decal

/-- `#[derive(Clone)]` of `MaterialSet` (mtl.rs:211-214). -/
def MaterialSet.clone {F : Type} (s : MaterialSet F) : MaterialSet F where
  materials := vec Material.clone s.materials

/-- `#[derive(Clone)]` of the `Copy` type `mtl::ErrorKind` (mtl.rs:218). -/
def ErrorKind.clone (s : ErrorKind) : ErrorKind := s

/-- The discriminant of `mtl::ErrorKind` (mtl.rs:219-235): the variants are numbered in order from 0. -/
def ErrorKind.discriminant : ErrorKind → Nat
  | .EndOfFile => 0
  | .ExpectedTagStatement => 1
  | .ExpectedFloat => 2
  | .ExpectedInteger => 3
  | .ExpectedEndOfInput => 4
  | .UnknownIlluminationModel => 5
  | .ErrorParsingMaterial => 6

/-- `#[derive(Hash)]` of `mtl::ErrorKind` (mtl.rs:218): the discriminant is written to the hasher as one `isize`.
`write` is `Hasher::write_isize` of any hasher. -/
def ErrorKind.hash {H : Type} (write : H → Nat → H) (s : ErrorKind) (state : H) : H := write state s.discriminant

end Mtl

end Verif
