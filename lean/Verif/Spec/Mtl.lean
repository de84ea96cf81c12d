import Verif.Model.Mtl

/-!
# Specification of the MTL language and of the meaning of a material library

Independent of the parser's control structure: a grammar over token lists, and
for each field of a material which statement decides its value.  Only the data
types of the model (`Material`, `ErrorKind`, …) are shared.
-/

namespace Verif.Spec.Mtl

open Verif Verif.Mtl

inductive ColorSlot where
  | ambient | diffuse | specular | emissive
deriving DecidableEq, Repr

inductive NumSlot where
  | dissolve | exponent | density
deriving DecidableEq, Repr

inductive MapSlot where
  | ambient | diffuse | specular | emissive | exponent | bump | displacement | dissolve | decal
deriving DecidableEq, Repr

/-- A statement of a material. -/
inductive Item where
  | color (slot : ColorSlot) (r g b : Tok)
  | num (slot : NumSlot) (x : Tok)
  | illum (model : IlluminationModel)
  | map (slot : MapSlot) (name : Bytes)
deriving DecidableEq, Repr

/-- A material. -/
structure MatAst where
  name : Bytes
  items : List Item
deriving DecidableEq, Repr

/-! ## Grammar -/

def ColorSlot.tag : ColorSlot → Tok
  | .ambient => b!"Ka"
  | .diffuse => b!"Kd"
  | .specular => b!"Ks"
  | .emissive => b!"Ke"

def NumSlot.tag : NumSlot → Tok
  | .dissolve => b!"d"
  | .exponent => b!"Ns"
  | .density => b!"Ni"

/-- The bump map has two spellings. -/
def MapSlot.tags : MapSlot → List Tok
  | .ambient => [b!"map_Ka"]
  | .diffuse => [b!"map_Kd"]
  | .specular => [b!"map_Ks"]
  | .emissive => [b!"map_Ke"]
  | .exponent => [b!"map_Ns"]
  | .bump => [b!"map_Bump", b!"bump"]
  | .displacement => [b!"disp"]
  | .dissolve => [b!"map_d"]
  | .decal => [b!"decal"]

/-- The number of an illumination model. -/
def illumNumber : IlluminationModel → Nat
  | .Ambient => 0
  | .AmbientDiffuse => 1
  | .AmbientDiffuseSpecular => 2

/-- `Stmt it toks rest`: `toks` starts with the statement `it`, followed by `rest`. -/
inductive Stmt : Item → List Tok → List Tok → Prop
  | color {s r g b rest} : isFloat r = true → isFloat g = true → isFloat b = true →
      Stmt (.color s r g b) (s.tag :: r :: g :: b :: rest) rest
  | num {s x rest} : isFloat x = true → Stmt (.num s x) (s.tag :: x :: rest) rest
  | illum {model t rest} : parseUsize t = some (illumNumber model) →
      Stmt (.illum model) (b!"illum" :: t :: rest) rest
  | map {s tag name rest} : tag ∈ s.tags → Stmt (.map s name) (tag :: name :: rest) rest

/-- Everything a material's statement can start with. -/
def IsKeyword (t : Tok) : Prop :=
  (∃ s : ColorSlot, t = s.tag) ∨ (∃ s : NumSlot, t = s.tag) ∨ t = b!"illum" ∨
    (∃ s : MapSlot, t ∈ s.tags)

/-- Where a material ends. -/
def BodyEnd (toks : List Tok) : Prop := toks = [] ∨ toks.head? = some b!"newmtl"

/-- The statements of a material.  Statements need not be on lines of their own. -/
inductive Body : List Item → List Tok → List Tok → Prop
  | done {rest} : BodyEnd rest → Body [] rest rest
  | blank {items toks rest} : Body items toks rest → Body items (nl :: toks) rest
  | stmt {it items toks mid rest} : Stmt it toks mid → Body items mid rest →
      Body (it :: items) toks rest

/-- The materials of a file.  Any token at all can be the name. -/
inductive Mats : List MatAst → List Tok → Prop
  | done : Mats [] []
  | mat {name items mats toks rest} : Body items toks rest → Mats mats rest →
      Mats (⟨name, items⟩ :: mats) (b!"newmtl" :: name :: toks)

/-- A file: blank lines, then materials. -/
inductive FileOk : List Tok → List MatAst → Prop
  | blank {toks mats} : FileOk toks mats → FileOk (nl :: toks) mats
  | mats {toks mats} : Mats mats toks → FileOk toks mats

/-! ## Errors -/

def eofText : Bytes := b!"Expected token but reached end of input."
def floatText (t : Tok) : Bytes := b!"Expected floating point number but got " ++ t
def intText (t : Tok) : Bytes := b!"Expected integer but got " ++ t
def illumText (n : Nat) : Bytes := b!"Unknown illumination model: " ++ showNat n ++ b!"."
def mapText : Bytes := b!"Expected texture map name but got end of input."
def noNameText : Bytes := b!"Expected material name but got end of input."
def unknownText (t : Tok) : Bytes := b!"Could not parse the token `" ++ t ++ b!"`."
def trailingText (t : Tok) : Bytes := b!"Expected end of input but got `" ++ t ++ b!"`."

/-- `StmtErr toks kind message rest`: the statement at the start of `toks` is rejected;
`rest` is what had not been read at that moment. -/
inductive StmtErr : List Tok → ErrorKind → Bytes → List Tok → Prop
  | color_eof {s : ColorSlot} {xs} : xs.length < 3 → (∀ x ∈ xs, isFloat x = true) →
      StmtErr (s.tag :: xs) .EndOfFile eofText []
  | color_bad {s : ColorSlot} {xs t rest} : xs.length < 3 → (∀ x ∈ xs, isFloat x = true) →
      isFloat t = false →
      StmtErr (s.tag :: (xs ++ t :: rest)) .ExpectedFloat (floatText t) rest
  | num_eof {s : NumSlot} : StmtErr [s.tag] .EndOfFile eofText []
  | num_bad {s : NumSlot} {t rest} : isFloat t = false →
      StmtErr (s.tag :: t :: rest) .ExpectedFloat (floatText t) rest
  | illum_eof : StmtErr [b!"illum"] .EndOfFile eofText []
  | illum_bad {t rest} : parseUsize t = none →
      StmtErr (b!"illum" :: t :: rest) .ExpectedInteger (intText t) rest
  | illum_unknown {t n rest} : parseUsize t = some n → 2 < n →
      StmtErr (b!"illum" :: t :: rest) .UnknownIlluminationModel (illumText n) rest
  | map_eof {s : MapSlot} {tag} : tag ∈ s.tags → StmtErr [tag] .EndOfFile mapText []
  | unknown {t rest} : ¬ IsKeyword t → t ≠ nl → t ≠ b!"newmtl" →
      StmtErr (t :: rest) .ErrorParsingMaterial (unknownText t) (t :: rest)

inductive BodyErr : List Tok → ErrorKind → Bytes → List Tok → Prop
  | here {toks k m rest} : StmtErr toks k m rest → BodyErr toks k m rest
  | blank {toks k m rest} : BodyErr toks k m rest → BodyErr (nl :: toks) k m rest
  | later {it toks mid k m rest} : Stmt it toks mid → BodyErr mid k m rest → BodyErr toks k m rest

inductive MatsErr : List Tok → ErrorKind → Bytes → List Tok → Prop
  | no_name : MatsErr [b!"newmtl"] .EndOfFile noNameText []
  | body {name toks k m rest} : BodyErr toks k m rest → MatsErr (b!"newmtl" :: name :: toks) k m rest
  | later {name items toks mid k m rest} : Body items toks mid → MatsErr mid k m rest →
      MatsErr (b!"newmtl" :: name :: toks) k m rest

inductive FileErr : List Tok → ErrorKind → Bytes → List Tok → Prop
  | blank {toks k m rest} : FileErr toks k m rest → FileErr (nl :: toks) k m rest
  | trailing {t toks} : t ≠ nl → t ≠ b!"newmtl" →
      FileErr (t :: toks) .ExpectedEndOfInput (trailingText t) (t :: toks)
  | mats {toks k m rest} : MatsErr toks k m rest → FileErr toks k m rest

/-! ## Meaning: the last statement about a field decides its value -/

section
variable {F : Type} [FloatSem F]

def Item.color? (s : ColorSlot) : Item → Option (Color F)
  | .color s' r g b =>
    if s' = s then some ⟨FloatSem.value r, FloatSem.value g, FloatSem.value b⟩ else none
  | _ => none

def Item.num? (s : NumSlot) : Item → Option F
  | .num s' x => if s' = s then some (FloatSem.value x) else none
  | _ => none

def Item.illum? : Item → Option IlluminationModel
  | .illum model => some model
  | _ => none

def Item.map? (s : MapSlot) : Item → Option Bytes
  | .map s' name => if s' = s then some name else none
  | _ => none

/-- The last answer, if any. -/
def last {α β : Type} (f : α → Option β) (l : List α) : Option β := (l.filterMap f).getLast?

/-- The material described by a list of statements, with the defaults for fields never set. -/
def matMeaning (m : MatAst) : Material F where
  name := m.name
  color_ambient := (last (Item.color? .ambient) m.items).getD ⟨FloatSem.zero, FloatSem.zero, FloatSem.zero⟩
  color_diffuse := (last (Item.color? .diffuse) m.items).getD ⟨FloatSem.zero, FloatSem.zero, FloatSem.zero⟩
  color_specular := (last (Item.color? .specular) m.items).getD ⟨FloatSem.zero, FloatSem.zero, FloatSem.zero⟩
  color_emissive := (last (Item.color? .emissive) m.items).getD ⟨FloatSem.zero, FloatSem.zero, FloatSem.zero⟩
  specular_exponent := (last (Item.num? .exponent) m.items).getD FloatSem.zero
  dissolve := (last (Item.num? .dissolve) m.items).getD FloatSem.one
  optical_density := last (Item.num? .density) m.items
  illumination_model := (last Item.illum? m.items).getD .AmbientDiffuseSpecular
  map_ambient := last (Item.map? .ambient) m.items
  map_diffuse := last (Item.map? .diffuse) m.items
  map_specular := last (Item.map? .specular) m.items
  map_emissive := last (Item.map? .emissive) m.items
  map_specular_exponent := last (Item.map? .exponent) m.items
  map_bump := last (Item.map? .bump) m.items
  map_displacement := last (Item.map? .displacement) m.items
  map_dissolve := last (Item.map? .dissolve) m.items
  map_decal := last (Item.map? .decal) m.items

def meaning (mats : List MatAst) : MaterialSet F := ⟨mats.map matMeaning⟩

end

end Verif.Spec.Mtl
