import Verif.Model.Obj
import Verif.Model.Mtl
import Verif.Model.Float

/-!
# Model of the derived `Debug` implementations

A function of this file returns the characters of `format!("{:?}", x)`.  Writing to the formatter is assumed
to succeed.  What `#[derive(Debug)]` expands to and the `Debug` of `String`, `Vec`, `Option`, `usize` and `f64`
are those of the Rust standard library.  Which characters are printed as they are (`plain`: printable and not
a grapheme extender) is a table of Unicode and is left open.
-/

namespace Verif

/-- The characters of a string. -/
abbrev Text := List Char

/-- `c!"abc"` is the explicit list of the characters of a string literal. -/
syntax:max "c!" str : term

open Lean in
macro_rules
  | `(c! $s:str) => do
    let mut acc : TSyntax `term ← `(([] : Text))
    for c in s.getString.toList.reverse do
      acc ← `(List.cons $(Syntax.mkCharLit c) $acc)
    return acc

/-- ASCII bytes as characters. -/
def ascii (b : Bytes) : Text := b.map fun c => Char.ofNat c.toNat

/-- The characters of a `String`, of which the model keeps the bytes. -/
def chars (b : Bytes) : Text := (b.toByteArray.utf8Decode?.getD #[]).toList

namespace Debug

/-- Values with a comma between them. -/
def join : List Text → Text
  | [] => []
  | [v] => v
  | v :: w :: r => v ++ c!", " ++ join (w :: r)

/-- `Formatter::debug_struct` (Rust std, `core::fmt::builders::DebugStruct`): the fields and their values. -/
def struct (name : Text) (fields : List (Text × Text)) : Text :=
  name ++ c!" { " ++ join (fields.map fun f => f.1 ++ c!": " ++ f.2) ++ c!" }"

/-- `Formatter::debug_tuple` (Rust std, `core::fmt::builders::DebugTuple`), for a tuple with a field. -/
def tuple (name : Text) (values : List Text) : Text := name ++ c!"(" ++ join values ++ c!")"

/-- `Debug` of `Vec<T>` (Rust std, `core::fmt::builders::DebugList`). -/
def vec {T : Type} (value : T → Text) (l : List T) : Text := c!"[" ++ join (l.map value) ++ c!"]"

/-- `Debug` of `Option<T>` (derived in Rust std, `core::option`). -/
def option {T : Type} (value : T → Text) : Option T → Text
  | none => c!"None"
  | some a => tuple c!"Some" [value a]

/-- `Debug` of `usize`. -/
def usize (n : Nat) : Text := ascii (showNat n)

/-- `char::escape_debug_ext` (Rust std, `core::char::methods`) as it is used for strings: without escaping a single
quote. -/
def escape (plain : Char → Bool) (c : Char) : Text :=
  if c = '\x00' then c!"\\0"
  else if c = '\t' then c!"\\t"
  else if c = '\r' then c!"\\r"
  else if c = '\n' then c!"\\n"
  else if c = '\\' then c!"\\\\"
  else if c = '"' then c!"\\\""
  else if plain c then [c]
  else c!"\\u{" ++ Nat.toDigits 16 c.toNat ++ c!"}"

/-- `Debug` of `str` (Rust std, `core::fmt`), by the characters. -/
def quoted (plain : Char → Bool) (cs : Text) : Text := c!"\"" ++ cs.flatMap (escape plain) ++ c!"\""

/-- `Debug` of `String` and `Cow<str>`. -/
def string (plain : Char → Bool) (b : Bytes) : Text := quoted plain (chars b)

end Debug

open Debug

/-- `format!("{:?}", x)` for `x : f64`. -/
class FloatDebug (F : Type) where
  debug : F → Bytes

namespace F64

/-- `d * 10^x` with a point and at least one digit after it (Rust std, `core::num::flt2dec::digits_to_dec_str` with
`frac_digits = 1`). -/
def pointed (d : Nat) (x : Int) : Bytes := if 0 ≤ x then plain d x ++ b!".0" else plain d x

/-- `d * 10^x` with an exponent part (Rust std, `core::num::flt2dec::digits_to_exp_str`). -/
def scientific (d : Nat) (x : Int) : Bytes :=
  (showNat d).take 1 ++ (if (showNat d).length = 1 then [] else b!"." ++ (showNat d).drop 1) ++
    b!"e" ++ showInt (x + (showNat d).length - 1)

/-- `1e-4`. -/
def smallBits : Nat := roundBits (2 ^ 1074) (10 ^ 4)

/-- `1e16`. -/
def largeBits : Nat := roundBits (2 ^ 1074 * 10 ^ 16) 1

/-- `Debug` (Rust std, `core::fmt::float::float_to_general_debug`). -/
instance : FloatDebug F64 where
  debug
    | .nan => b!"NaN"
    | .num neg bits _ =>
      (if neg then b!"-" else []) ++
        if bits = infBits then b!"inf"
        else if bits = 0 then b!"0.0"
        else if largeBits ≤ bits ∨ bits < smallBits then
          scientific (shortest bits 1384 309).1 (shortest bits 1384 309).2
        else pointed (shortest bits 1384 309).1 (shortest bits 1384 309).2

end F64

/-- `Debug` of `f64`. -/
def Debug.float {F : Type} [FloatDebug F] (x : F) : Text := ascii (FloatDebug.debug x)

/-- `#[derive(Debug)]` of `ParseError` (obj.rs:627-635, mtl.rs:239-247). -/
def ParseError.debug {K : Type} (plain : Char → Bool) (kind : K → Text) (s : ParseError K) : Text :=
  struct c!"ParseError"
    [(c!"line_number", usize s.line_number), (c!"kind", kind s.kind), (c!"message", string plain s.message)]

namespace Obj

section
variable {F : Type} [FloatDebug F]

/-- `#[derive(Debug)]` of `Vertex` (obj.rs:119-130). -/
def Vertex.debug (s : Vertex F) : Text :=
  struct c!"Vertex" [(c!"x", float s.x), (c!"y", float s.y), (c!"z", float s.z), (c!"w", float s.w)]

/-- `#[derive(Debug)]` of `TextureVertex` (obj.rs:140-148). -/
def TextureVertex.debug (s : TextureVertex F) : Text :=
  struct c!"TextureVertex" [(c!"u", float s.u), (c!"v", float s.v), (c!"w", float s.w)]

/-- `#[derive(Debug)]` of `NormalVertex` (obj.rs:158-166). -/
def NormalVertex.debug (s : NormalVertex F) : Text :=
  struct c!"NormalVertex" [(c!"x", float s.x), (c!"y", float s.y), (c!"z", float s.z)]

/-- `#[derive(Debug)]` of `VTNTriple` (obj.rs:376-382); a reference is printed as the value. -/
def VTNTriple.debug : VTNTriple F → Text
  | .V v => tuple c!"V" [v.debug]
  | .VT v vt => tuple c!"VT" [v.debug, vt.debug]
  | .VN v vn => tuple c!"VN" [v.debug, vn.debug]
  | .VTN v vt vn => tuple c!"VTN" [v.debug, vt.debug, vn.debug]

end

/-- `#[derive(Debug)]` of `VTNIndex` (obj.rs:183-189). -/
def VTNIndex.debug : VTNIndex → Text
  | .V v => tuple c!"V" [usize v]
  | .VT v vt => tuple c!"VT" [usize v, usize vt]
  | .VN v vn => tuple c!"VN" [usize v, usize vn]
  | .VTN v vt vn => tuple c!"VTN" [usize v, usize vt, usize vn]

/-- `#[derive(Debug)]` of `Element` (obj.rs:278-283). -/
def Element.debug : Element → Text
  | .Point a => tuple c!"Point" [a.debug]
  | .Line a b => tuple c!"Line" [a.debug, b.debug]
  | .Face a b c => tuple c!"Face" [a.debug, b.debug, c.debug]

/-- `#[derive(Debug)]` of `Group` (obj.rs:305-306). -/
def Group.debug (plain : Char → Bool) (s : Group) : Text := tuple c!"Group" [string plain s.name]

/-- `#[derive(Debug)]` of `SmoothingGroup` (obj.rs:323-324). -/
def SmoothingGroup.debug (s : SmoothingGroup) : Text := tuple c!"SmoothingGroup" [usize s.number]

/-- `#[derive(Debug)]` of `ShapeEntry` (obj.rs:338-346). -/
def ShapeEntry.debug (s : ShapeEntry) : Text :=
  struct c!"ShapeEntry" [(c!"element", usize s.element), (c!"groups", vec usize s.groups),
    (c!"smoothing_group", usize s.smoothing_group)]

/-- `#[derive(Debug)]` of `Geometry` (obj.rs:366-373). -/
def Geometry.debug (plain : Char → Bool) (s : Geometry) : Text :=
  struct c!"Geometry" [(c!"material_name", option (string plain) s.material_name), (c!"shapes", vec usize s.shapes)]

section
variable {F : Type} [FloatDebug F]

/-- `#[derive(Debug)]` of `Object` (obj.rs:387-408). -/
def Object.debug (plain : Char → Bool) (s : Object F) : Text :=
  struct c!"Object" [(c!"name", string plain s.name),
    (c!"vertex_set", vec Vertex.debug s.vertex_set),
    (c!"texture_vertex_set", vec TextureVertex.debug s.texture_vertex_set),
    (c!"normal_vertex_set", vec NormalVertex.debug s.normal_vertex_set),
    (c!"group_set", vec (Group.debug plain) s.group_set),
    (c!"smoothing_group_set", vec SmoothingGroup.debug s.smoothing_group_set),
    (c!"element_set", vec Element.debug s.element_set),
    (c!"shape_set", vec ShapeEntry.debug s.shape_set),
    (c!"geometry_set", vec (Geometry.debug plain) s.geometry_set)]

/-- `#[derive(Debug)]` of `ObjectSet` (obj.rs:568-574). -/
def ObjectSet.debug (plain : Char → Bool) (s : ObjectSet F) : Text :=
  struct c!"ObjectSet" [(c!"material_libraries", vec (string plain) s.material_libraries),
    (c!"objects", vec (Object.debug plain) s.objects)]

end

/-- `#[derive(Debug)]` of `ErrorKind` (obj.rs:594-623). -/
def ErrorKind.debug : ErrorKind → Text
  | .EndOfFile => c!"EndOfFile"
  | .ExpectedTagStatement => c!"ExpectedTagStatement"
  | .ExpectedFloat => c!"ExpectedFloat"
  | .ExpectedInteger => c!"ExpectedInteger"
  | .ExpectedVTNIndex => c!"ExpectedVTNIndex"
  | .VTNIndexOutOfRange => c!"VTNIndexOutOfRange"
  | .EveryFaceElementMustHaveAtLeastThreeVertices => c!"EveryFaceElementMustHaveAtLeastThreeVertices"
  | .EveryVTNIndexMustHaveTheSameFormForAGivenElement => c!"EveryVTNIndexMustHaveTheSameFormForAGivenElement"
  | .InvalidObjectStatement => c!"InvalidObjectStatement"
  | .ElementMustBeAPointLineOrFace => c!"ElementMustBeAPointLineOrFace"
  | .SmoothingGroupNameMustBeOffOrInteger => c!"SmoothingGroupNameMustBeOffOrInteger"
  | .SmoothingGroupDeclarationHasNoName => c!"SmoothingGroupDeclarationHasNoName"
  | .MaterialStatementHasNoName => c!"MaterialStatementHasNoName"

end Obj

namespace Mtl

section
variable {F : Type} [FloatDebug F]

/-- `#[derive(Debug)]` of `Color` (mtl.rs:76-84). -/
def Color.debug (s : Color F) : Text :=
  struct c!"Color" [(c!"r", float s.r), (c!"g", float s.g), (c!"b", float s.b)]

/-- `#[derive(Debug)]` of `IlluminationModel` (mtl.rs:103-111). -/
def IlluminationModel.debug : IlluminationModel → Text
  | .Ambient => c!"Ambient"
  | .AmbientDiffuse => c!"AmbientDiffuse"
  | .AmbientDiffuseSpecular => c!"AmbientDiffuseSpecular"

/-- `#[derive(Debug)]` of `Material` (mtl.rs:122-182). -/
def Material.debug (plain : Char → Bool) (s : Material F) : Text :=
  struct c!"Material" [(c!"name", string plain s.name),
    (c!"color_ambient", s.color_ambient.debug),
    (c!"color_diffuse", s.color_diffuse.debug),
    (c!"color_specular", s.color_specular.debug),
    (c!"color_emissive", s.color_emissive.debug),
    (c!"specular_exponent", float s.specular_exponent),
    (c!"dissolve", float s.dissolve),
    (c!"optical_density", option float s.optical_density),
    (c!"illumination_model", s.illumination_model.debug),
    (c!"map_ambient", option (string plain) s.map_ambient),
    (c!"map_diffuse", option (string plain) s.map_diffuse),
    (c!"map_specular", option (string plain) s.map_specular),
    (c!"map_emissive", option (string plain) s.map_emissive),
    (c!"map_specular_exponent", option (string plain) s.map_specular_exponent),
    (c!"map_bump", option (string plain) s.map_bump),
    (c!"map_displacement", option (string plain) s.map_displacement),
    (c!"map_dissolve", option (string plain) s.map_dissolve),
    (c!"map_decal", option (string plain) s.map_decal)]

/-- `#[derive(Debug)]` of `MaterialSet` (mtl.rs:211-214). -/
def MaterialSet.debug (plain : Char → Bool) (s : MaterialSet F) : Text :=
  struct c!"MaterialSet" [(c!"materials", vec (Material.debug plain) s.materials)]

end

/-- `#[derive(Debug)]` of `ErrorKind` (mtl.rs:218-235). -/
def ErrorKind.debug : ErrorKind → Text
  | .EndOfFile => c!"EndOfFile"
  | .ExpectedTagStatement => c!"ExpectedTagStatement"
  | .ExpectedFloat => c!"ExpectedFloat"
  | .ExpectedInteger => c!"ExpectedInteger"
  | .ExpectedEndOfInput => c!"ExpectedEndOfInput"
  | .UnknownIlluminationModel => c!"UnknownIlluminationModel"
  | .ErrorParsingMaterial => c!"ErrorParsingMaterial"

end Mtl

end Verif
