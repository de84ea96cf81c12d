import Verif.Model.Parser

/-!
# Model of `src/mtl.rs`
-/

namespace Verif.Mtl

open Verif

/-- `struct Color` (mtl.rs:76-84). -/
structure Color (F : Type) where
  r : F
  g : F
  b : F
deriving DecidableEq, Repr

/-- `Color::zero` (mtl.rs:87-94). -/
def Color.zero {F : Type} [FloatSem F] : Color F :=
  { r := FloatSem.zero, g := FloatSem.zero, b := FloatSem.zero }

/-- `enum IlluminationModel` (mtl.rs:103-111). -/
inductive IlluminationModel where
  | Ambient
  | AmbientDiffuse
  | AmbientDiffuseSpecular
deriving DecidableEq, Repr

/-- `struct Material` (mtl.rs:122-182). -/
structure Material (F : Type) where
  name : Bytes
  color_ambient : Color F
  color_diffuse : Color F
  color_specular : Color F
  color_emissive : Color F
  specular_exponent : F
  dissolve : F
  optical_density : Option F
  illumination_model : IlluminationModel
  map_ambient : Option Bytes
  map_diffuse : Option Bytes
  map_specular : Option Bytes
  map_emissive : Option Bytes
  map_specular_exponent : Option Bytes
  map_bump : Option Bytes
  map_displacement : Option Bytes
  map_dissolve : Option Bytes
  map_decal : Option Bytes
deriving DecidableEq, Repr

/-- `Material::new` (mtl.rs:185-206). -/
def Material.new {F : Type} [FloatSem F] : Material F where
  name := []
  color_ambient := Color.zero
  color_diffuse := Color.zero
  color_specular := Color.zero
  color_emissive := Color.zero
  specular_exponent := FloatSem.zero
  dissolve := FloatSem.one
  optical_density := none
  illumination_model := .AmbientDiffuseSpecular
  map_ambient := none
  map_diffuse := none
  map_specular := none
  map_emissive := none
  map_specular_exponent := none
  map_bump := none
  map_displacement := none
  map_dissolve := none
  map_decal := none

/-- `struct MaterialSet` (mtl.rs:211-214). -/
structure MaterialSet (F : Type) where
  materials : List (Material F)
deriving DecidableEq, Repr

/-- `enum ErrorKind` (mtl.rs:218-235). -/
inductive ErrorKind where
  | EndOfFile
  | ExpectedTagStatement
  | ExpectedFloat
  | ExpectedInteger
  | ExpectedEndOfInput
  | UnknownIlluminationModel
  | ErrorParsingMaterial
deriving DecidableEq, Repr

/-- A parser method of `mtl::Parser`. -/
abbrev MP (σ α : Type) := P σ ErrorKind α

section
variable {σ : Type} [TokStream σ]

/-- `Parser::next_string` (mtl.rs:317-329). -/
def next_string : MP σ Tok := do
  match ← P.next with
  | some st => return st
  | none => P.error .EndOfFile b!"Expected token but reached end of input."

/-- `Parser::expect_tag` (mtl.rs:331-344). -/
def expect_tag (tag : Tok) : MP σ Unit := do
  match ← P.next with
  | none => P.error .EndOfFile []
  | some st =>
    if st ≠ tag then
      P.error .ExpectedTagStatement
        (b!"Expected statement " ++ tag ++ b!" but got statement " ++ st)
    else return ()

/-- `Parser::parse_usize` (mtl.rs:365-375). -/
def parse_usize : MP σ Nat := do
  let st ← next_string
  match parseUsize st with
  | some val => return val
  | none => P.error .ExpectedInteger (b!"Expected integer but got " ++ st)

/-- `Parser::parse_illumination_model` (mtl.rs:585-598). -/
def parse_illumination_model : MP σ IlluminationModel := do
  expect_tag b!"illum"
  let model_number ← parse_usize
  match model_number with
  | 0 => return .Ambient
  | 1 => return .AmbientDiffuse
  | 2 => return .AmbientDiffuseSpecular
  | n => P.error .UnknownIlluminationModel (b!"Unknown illumination model: " ++ showNat n ++ b!".")

/-- The final `match self.next()` shared verbatim by the texture map methods
(mtl.rs:436-442, 453-459, 470-476, 487-493, 508-514, 525-531, 542-548, 559-565,
576-582). -/
def map_name : MP σ (Option Tok) := do
  match ← P.next with
  | some st => return some st
  | none => P.error .EndOfFile b!"Expected texture map name but got end of input."

/-- The nine-times repeated shape of the texture map methods with one tag:
return `None` unless the next token is the tag, else take the tag and a name. -/
def parse_map (tag : Tok) : MP σ (Option Tok) := do
  let t ← P.peek
  if t = some tag then do
    expect_tag tag
    map_name
  else return none

/-- `Parser::parse_map_ambient` (mtl.rs:428-443). -/
def parse_map_ambient : MP σ (Option Tok) := parse_map b!"map_Ka"
/-- `Parser::parse_map_diffuse` (mtl.rs:445-460). -/
def parse_map_diffuse : MP σ (Option Tok) := parse_map b!"map_Kd"
/-- `Parser::parse_map_specular` (mtl.rs:462-477). -/
def parse_map_specular : MP σ (Option Tok) := parse_map b!"map_Ks"
/-- `Parser::parse_map_emissive` (mtl.rs:479-494). -/
def parse_map_emissive : MP σ (Option Tok) := parse_map b!"map_Ke"
/-- `Parser::parse_map_displacement` (mtl.rs:517-532). -/
def parse_map_displacement : MP σ (Option Tok) := parse_map b!"disp"
/-- `Parser::parse_map_dissolve` (mtl.rs:534-549). -/
def parse_map_dissolve : MP σ (Option Tok) := parse_map b!"map_d"
/-- `Parser::parse_map_decal` (mtl.rs:551-566). -/
def parse_map_decal : MP σ (Option Tok) := parse_map b!"decal"
/-- `Parser::parse_map_specular_exponent` (mtl.rs:568-583). -/
def parse_map_specular_exponent : MP σ (Option Tok) := parse_map b!"map_Ns"

/-- `Parser::parse_map_bump` (mtl.rs:496-515). -/
def parse_map_bump : MP σ (Option Tok) := do
  let t ← P.peek
  if t = some b!"map_Bump" then do
    expect_tag b!"map_Bump"
    map_name
  else if t = some b!"bump" then do
    expect_tag b!"bump"
    map_name
  else return none

/-- `Parser::parse_newmtl` (mtl.rs:600-625). -/
def parse_newmtl : MP σ Tok := do
  match ← P.next with
  | some st =>
    if st = b!"newmtl" then do
      match ← P.next with
      | some st => return st
      | none => P.error .EndOfFile b!"Expected material name but got end of input."
    else P.error .ExpectedTagStatement (b!"Expected `newmtl` but got " ++ st ++ b!".")
  | none => P.error .EndOfFile b!"Expected `newmtl` but got end of input."

variable {F : Type} [FloatSem F]

/-- `Parser::parse_f64` (mtl.rs:353-363). -/
def parse_f64 : MP σ F := do
  let st ← next_string
  match parseF64 st with
  | some val => return val
  | none => P.error .ExpectedFloat (b!"Expected floating point number but got " ++ st)

/-- `Parser::parse_color` (mtl.rs:377-384). -/
def parse_color : MP σ (Color F) := do
  let r ← parse_f64
  let g ← parse_f64
  let b ← parse_f64
  return { r := r, g := g, b := b }

/-- `Parser::parse_ambient_component` (mtl.rs:386-390). -/
def parse_ambient_component : MP σ (Color F) := do expect_tag b!"Ka"; parse_color
/-- `Parser::parse_diffuse_component` (mtl.rs:392-396). -/
def parse_diffuse_component : MP σ (Color F) := do expect_tag b!"Kd"; parse_color
/-- `Parser::parse_specular_component` (mtl.rs:398-402). -/
def parse_specular_component : MP σ (Color F) := do expect_tag b!"Ks"; parse_color
/-- `Parser::parse_emissive_component` (mtl.rs:404-408). -/
def parse_emissive_component : MP σ (Color F) := do expect_tag b!"Ke"; parse_color
/-- `Parser::parse_dissolve_component` (mtl.rs:410-414). -/
def parse_dissolve_component : MP σ F := do expect_tag b!"d"; parse_f64
/-- `Parser::parse_specular_exponent` (mtl.rs:416-420). -/
def parse_specular_exponent : MP σ F := do expect_tag b!"Ns"; parse_f64
/-- `Parser::parse_optical_density` (mtl.rs:422-426). -/
def parse_optical_density : MP σ F := do expect_tag b!"Ni"; parse_f64

/-- The `match` on the peeked token in the loop of `Parser::parse_material`
(mtl.rs:635-706) for the arms that go on; `t` is the peeked token. -/
def material_step (t : Tok) (m : Material F) : MP σ (Material F) := do
  if t = b!"Ka" then
    let c ← parse_ambient_component
    return { m with color_ambient := c }
  else if t = b!"Kd" then
    let c ← parse_diffuse_component
    return { m with color_diffuse := c }
  else if t = b!"Ks" then
    let c ← parse_specular_component
    return { m with color_specular := c }
  else if t = b!"Ke" then
    let c ← parse_emissive_component
    return { m with color_emissive := c }
  else if t = b!"d" then
    let x ← parse_dissolve_component
    return { m with dissolve := x }
  else if t = b!"illum" then
    let x ← parse_illumination_model
    return { m with illumination_model := x }
  else if t = b!"Ns" then
    let x ← parse_specular_exponent
    return { m with specular_exponent := x }
  else if t = b!"Ni" then
    let x ← parse_optical_density
    return { m with optical_density := some x }
  else if t = b!"map_Ka" then
    let x ← parse_map_ambient
    return { m with map_ambient := x }
  else if t = b!"map_Kd" then
    let x ← parse_map_diffuse
    return { m with map_diffuse := x }
  else if t = b!"map_Ks" then
    let x ← parse_map_specular
    return { m with map_specular := x }
  else if t = b!"map_Ke" then
    let x ← parse_map_emissive
    return { m with map_emissive := x }
  else if t = b!"map_Ns" then
    let x ← parse_map_specular_exponent
    return { m with map_specular_exponent := x }
  else if t = b!"map_Bump" ∨ t = b!"bump" then
    let x ← parse_map_bump
    return { m with map_bump := x }
  else if t = b!"disp" then
    let x ← parse_map_displacement
    return { m with map_displacement := x }
  else if t = b!"map_d" then
    let x ← parse_map_dissolve
    return { m with map_dissolve := x }
  else if t = b!"decal" then
    let x ← parse_map_decal
    return { m with map_decal := x }
  else
    P.error .ErrorParsingMaterial (b!"Could not parse the token `" ++ t ++ b!"`.")

/-- The loop of `Parser::parse_material` (mtl.rs:634-708). -/
def material_loop (fuel0 : Nat) : Nat → Material F → MP σ (Material F)
  | 0, _ => P.outOfFuel
  | fuel + 1, m => do
    match ← P.peek with
    | none => return m
    | some t =>
      if t = b!"newmtl" then return m
      else do
        let m ← material_step t m
        P.skip_zero_or_more_newlines fuel0
        material_loop fuel0 fuel m

/-- `Parser::parse_material` (mtl.rs:627-711). -/
def parse_material (fuel : Nat) : MP σ (Material F) := do
  let name ← parse_newmtl
  P.skip_zero_or_more_newlines fuel
  material_loop fuel fuel { (Material.new : Material F) with name := name }

/-- The `while` loop of `Parser::parse_mtlset` (mtl.rs:779-782). -/
def mtlset_loop (fuel0 : Nat) : Nat → List (Material F) → MP σ (List (Material F))
  | 0, _ => P.outOfFuel
  | fuel + 1, materials => do
    let t ← P.peek
    if t = some b!"newmtl" then do
      let material ← parse_material fuel0
      mtlset_loop fuel0 fuel (materials ++ [material])
    else return materials

/-- `Parser::parse_mtlset` (mtl.rs:774-792). -/
def parse_mtlset (fuel : Nat) : MP σ (MaterialSet F) := do
  P.skip_zero_or_more_newlines fuel
  let materials ← mtlset_loop fuel fuel []
  match ← P.peek with
  | some st => P.error .ExpectedEndOfInput (b!"Expected end of input but got `" ++ st ++ b!"`.")
  | none => return { materials := materials }

end

/-- `mtl::Parser::new` (mtl.rs:282-288). -/
def Parser.new (input : Bytes) : PState PeekableLexer :=
  { line_number := 1, lexer := PeekableLexer.new (Lexer.new input) }

/-- `mtl::parse` (mtl.rs:70-72). -/
def parse {F : Type} [FloatSem F] (input : Bytes) : Out ErrorKind (MaterialSet F) :=
  (parse_mtlset (input.length + 1) (Parser.new input)).1

end Verif.Mtl
