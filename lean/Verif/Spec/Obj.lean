import Mathlib.Data.List.Forall2
import Verif.Model.Obj

/-!
# Specification of the OBJ language

From the model this file uses only the data types of the crate's API (`Object`,
`Element`, ..., `ErrorKind`), the build profile `Cfg` and, from `Verif.Basic`, what
the Rust standard library does on single tokens (`parseIsize`, `parseUsize`,
`isFloat`, `splitByte`).

* `Item`, `ObjAst`, `FileAst`: abstract syntax, numbers as written in the file.
* `FileOk`, `FileErr`, `FilePanic`: which token sequences are which file, which are
  rejected and how, which make the program panic.
* `meaning`: the object set a file denotes. Every element is tagged on the spot with
  the groups, the smoothing group and the material in force (the code instead
  records ranges and resolves them at the end of the object).
-/

namespace Verif.Spec.Obj

open Verif Verif.Obj

/-! ## Abstract syntax -/

/-- A vertex reference as written, counting from 1. -/
structure Ref where
  v : Nat
  vt : Option Nat
  vn : Option Nat
deriving DecidableEq, Repr

/-- Which of the two optional parts a reference has. -/
def Ref.form (r : Ref) : Bool × Bool := (r.vt.isSome, r.vn.isSome)

/-- All references have the same parts. -/
def Uniform (refs : List Ref) : Prop := ∀ a ∈ refs, ∀ b ∈ refs, a.form = b.form

/-- A statement of an object. Floating point numbers are kept as text. -/
inductive Item where
  | v (x y z : Tok) (w : Option Tok)
  | vt (u : Tok) (v w : Option Tok)
  | vn (x y z : Tok)
  | g (names : List Bytes)
  | s (number : Nat)
  | usemtl (name : Bytes)
  | p (indices : List Nat)
  | l (refs : List Ref)
  | f (refs : List Ref)
deriving DecidableEq, Repr

structure ObjAst where
  name : Bytes
  items : List Item
deriving DecidableEq, Repr

structure FileAst where
  libs : List Bytes
  objects : List ObjAst
deriving DecidableEq, Repr

/-- How many `v`, `vt`, `vn` statements. -/
structure Counts where
  v : Nat := 0
  vt : Nat := 0
  vn : Nat := 0
deriving DecidableEq, Repr

instance : Add Counts := ⟨fun a b => ⟨a.v + b.v, a.vt + b.vt, a.vn + b.vn⟩⟩

def Item.counts : Item → Counts
  | .v .. => ⟨1, 0, 0⟩
  | .vt .. => ⟨0, 1, 0⟩
  | .vn .. => ⟨0, 0, 1⟩
  | _ => ⟨0, 0, 0⟩

/-- The counts of a list of statements. -/
def countsOf (items : List Item) : Counts := items.foldl (fun c it => c + it.counts) {}

/-- An element statement (`p`, `l`, `f`). -/
def Item.isElement : Item → Bool
  | .p _ => true
  | .l _ => true
  | .f _ => true
  | _ => false

/-- A `usemtl` statement. -/
def Item.isUsemtl : Item → Bool
  | .usemtl _ => true
  | _ => false

/-- An object without any element and any `usemtl`. -/
def Bare (items : List Item) : Prop := ∀ it ∈ items, it.isElement = false ∧ it.isUsemtl = false

/-! ## Error texts -/

def eofText : Bytes := b!"Reached the end of the input in the process of getting the next token."
def floatText (t : Tok) : Bytes :=
  b!"Expected a floating point number but got `" ++ t ++ b!"` instead."
def intText (t : Tok) : Bytes := b!"Expected an integer but got `" ++ t ++ b!"` instead."
def rangeText (lo hi : Nat) (got : Int) : Bytes :=
  b!"Expected index in range [" ++ showNat lo ++ b!", " ++ showNat hi ++
    b!"), but got " ++ showInt got ++ b!"."
def refText (t : Tok) : Bytes :=
  b!"Expected a `vertex/texture/normal` index but got `" ++ t ++ b!"` instead."
def mixedLineText : Bytes := b!"Every VTN index for a line must have the same form."
def mixedFaceText : Bytes := b!"Every VTN index for a face must have the same form."
def fewText : Bytes := b!"A face primitive must have at least three vertices."
def smoothText (t : Tok) : Bytes :=
  b!"A smoothing group name must either be `off`, which denotes that an object has no smoothing groups, or an integer. The parser got `"
    ++ t ++ b!"` instead."
def noSmoothText : Bytes := b!"Got a smoothing group declaration without a smoothing group name."
def noMaterialText : Bytes := b!"Got a `usemtl` material declaration without a material name."
def unknownText (t : Tok) : Bytes := b!"Unsupported or invalid object statement `" ++ t ++ b!"`."
def tagText (want got : Tok) : Bytes :=
  b!"Expected `" ++ want ++ b!"` but got `" ++ got ++ b!"` instead."

/-! ## Numbers and references

`lo` is how many vertices (texture vertices, normals) the file has defined before the
current object, `hi` how many so far. -/

/-- A 64-bit signed integer, wrapping around. -/
def wrap64 (x : Int) : Int := (x + 2 ^ 63) % 2 ^ 64 - 2 ^ 63

/-- The token is the number `k` of something defined earlier in this object. -/
def NumTok (lo hi : Nat) (t : Tok) (k : Nat) : Prop :=
  parseIsize t = some (k : Int) ∧ lo < k ∧ k ≤ hi

/-- Resolving the (non-positive) number overflows, and the build checks for it. -/
def Overflows (cfg : Cfg) (hi : Nat) (k : Int) : Prop :=
  cfg.overflow_checks = true ∧ k ≤ 0 ∧ isizeMax < (hi : Int) - k

/-- The number shown in the out-of-range message. -/
def shownIndex (hi : Nat) (k : Int) : Int := if k ≤ 0 then wrap64 ((hi : Int) - k) else k - 1

/-- The token is not the number of something defined earlier in this object. -/
inductive NumErr (cfg : Cfg) (lo hi : Nat) (t : Tok) : ErrorKind → Bytes → Prop
  | notInt : parseIsize t = none → NumErr cfg lo hi t .ExpectedInteger (intText t)
  | range (k : Int) : parseIsize t = some k → ¬ ((lo : Int) < k ∧ k ≤ hi) →
      ¬ Overflows cfg hi k →
      NumErr cfg lo hi t .VTNIndexOutOfRange (rangeText lo hi (shownIndex hi k))

def NumPanic (cfg : Cfg) (hi : Nat) (t : Tok) : Prop :=
  ∃ k, parseIsize t = some k ∧ Overflows cfg hi k

/-- The pieces of a reference between slashes. -/
def pieces (t : Tok) : List Bytes := splitByte 47 t

/-- The `i`-th piece, empty if there is none. -/
def piece (t : Tok) (i : Nat) : Bytes := (pieces t)[i]?.getD []

/-- A piece is empty or a number in range. -/
def PieceOk (lo hi : Nat) (p : Bytes) (o : Option Nat) : Prop :=
  (p = [] ∧ o = none) ∨ ∃ k, p ≠ [] ∧ NumTok lo hi p k ∧ o = some k

/-- The token is the reference `ref`. -/
structure RefTok (lo hi : Counts) (t : Tok) (ref : Ref) : Prop where
  few : (pieces t).length ≤ 3
  v : PieceOk lo.v hi.v (piece t 0) (some ref.v)
  vt : PieceOk lo.vt hi.vt (piece t 1) ref.vt
  vn : PieceOk lo.vn hi.vn (piece t 2) ref.vn

/-- The token is not a reference; the first offending piece decides. -/
inductive RefErr (cfg : Cfg) (lo hi : Counts) (t : Tok) : ErrorKind → Bytes → Prop
  | v {k m} : piece t 0 ≠ [] → NumErr cfg lo.v hi.v (piece t 0) k m → RefErr cfg lo hi t k m
  | vt {o k m} : PieceOk lo.v hi.v (piece t 0) o →
      piece t 1 ≠ [] → NumErr cfg lo.vt hi.vt (piece t 1) k m → RefErr cfg lo hi t k m
  | vn {o o' k m} : PieceOk lo.v hi.v (piece t 0) o → PieceOk lo.vt hi.vt (piece t 1) o' →
      piece t 2 ≠ [] → NumErr cfg lo.vn hi.vn (piece t 2) k m → RefErr cfg lo hi t k m
  | shape {o o' o''} : PieceOk lo.v hi.v (piece t 0) o → PieceOk lo.vt hi.vt (piece t 1) o' →
      PieceOk lo.vn hi.vn (piece t 2) o'' → (o = none ∨ 3 < (pieces t).length) →
      RefErr cfg lo hi t .ExpectedVTNIndex (refText t)

inductive RefPanic (cfg : Cfg) (lo hi : Counts) (t : Tok) : Prop
  | v : piece t 0 ≠ [] → NumPanic cfg hi.v (piece t 0) → RefPanic cfg lo hi t
  | vt {o} : PieceOk lo.v hi.v (piece t 0) o →
      piece t 1 ≠ [] → NumPanic cfg hi.vt (piece t 1) → RefPanic cfg lo hi t
  | vn {o o'} : PieceOk lo.v hi.v (piece t 0) o → PieceOk lo.vt hi.vt (piece t 1) o' →
      piece t 2 ≠ [] → NumPanic cfg hi.vn (piece t 2) → RefPanic cfg lo hi t

/-! ## Statements -/

/-- The next token, if any, is not a floating point number. -/
def NoFloat (rest : List Tok) : Prop := ∀ t ∈ rest.head?, isFloat t = false

/-- The end of a line: a newline or the end of the input. -/
def EndLine (toks rest : List Tok) : Prop := toks = nl :: rest ∨ (toks = [] ∧ rest = [])

/-- What ends a list of references: any token that is not a reference (it is
swallowed, whatever it is), or the end of the input. -/
def Stop (cfg : Cfg) (lo hi : Counts) (toks rest : List Tok) : Prop :=
  (∃ t k m, toks = t :: rest ∧ RefErr cfg lo hi t k m) ∨ (toks = [] ∧ rest = [])

/-- The name of a smoothing group. -/
def SmoothTok (t : Tok) (n : Nat) : Prop := (t = b!"off" ∧ n = 0) ∨ (t ≠ b!"off" ∧ parseUsize t = some n)

/-- `Stmt cfg lo hi it toks rest`: `toks` starts with the statement `it`, followed by `rest`. -/
inductive Stmt (cfg : Cfg) (lo hi : Counts) : Item → List Tok → List Tok → Prop
  | v3 {x y z rest} : isFloat x = true → isFloat y = true → isFloat z = true → NoFloat rest →
      Stmt cfg lo hi (.v x y z none) (b!"v" :: x :: y :: z :: rest) rest
  | v4 {x y z w rest} : isFloat x = true → isFloat y = true → isFloat z = true → isFloat w = true →
      Stmt cfg lo hi (.v x y z (some w)) (b!"v" :: x :: y :: z :: w :: rest) rest
  | vt1 {u rest} : isFloat u = true → NoFloat rest →
      Stmt cfg lo hi (.vt u none none) (b!"vt" :: u :: rest) rest
  | vt2 {u v rest} : isFloat u = true → isFloat v = true → NoFloat rest →
      Stmt cfg lo hi (.vt u (some v) none) (b!"vt" :: u :: v :: rest) rest
  | vt3 {u v w rest} : isFloat u = true → isFloat v = true → isFloat w = true →
      Stmt cfg lo hi (.vt u (some v) (some w)) (b!"vt" :: u :: v :: w :: rest) rest
  | vn {x y z rest} : isFloat x = true → isFloat y = true → isFloat z = true →
      Stmt cfg lo hi (.vn x y z) (b!"vn" :: x :: y :: z :: rest) rest
  | g {names mid rest} : nl ∉ names → EndLine mid rest →
      Stmt cfg lo hi (.g names) (b!"g" :: (names ++ mid)) rest
  | s {t n rest} : SmoothTok t n → Stmt cfg lo hi (.s n) (b!"s" :: t :: rest) rest
  | usemtl {name rest} : Stmt cfg lo hi (.usemtl name) (b!"usemtl" :: name :: rest) rest
  | p {ts is mid rest} : is ≠ [] → List.Forall₂ (NumTok lo.v hi.v) ts is → EndLine mid rest →
      Stmt cfg lo hi (.p is) (b!"p" :: (ts ++ mid)) rest
  | l {ts refs mid rest} : 2 ≤ refs.length → List.Forall₂ (RefTok lo hi) ts refs → Uniform refs →
      Stop cfg lo hi mid rest → Stmt cfg lo hi (.l refs) (b!"l" :: (ts ++ mid)) rest
  | f {ts refs mid rest} : 3 ≤ refs.length → List.Forall₂ (RefTok lo hi) ts refs → Uniform refs →
      Stop cfg lo hi mid rest → Stmt cfg lo hi (.f refs) (b!"f" :: (ts ++ mid)) rest

/-- The tokens with which a statement, a blank line or a new object can start. -/
def keywords : List Tok :=
  [b!"v", b!"vt", b!"vn", b!"g", b!"s", b!"usemtl", b!"p", b!"l", b!"f", nl, b!"o"]

/-- `StmtErr cfg lo hi toks kind message rest`: the statement at the start of `toks` is
rejected; `rest` is what had not been read at that moment. -/
inductive StmtErr (cfg : Cfg) (lo hi : Counts) : List Tok → ErrorKind → Bytes → List Tok → Prop
  | v_eof {xs} : xs.length < 3 → (∀ x ∈ xs, isFloat x = true) →
      StmtErr cfg lo hi (b!"v" :: xs) .EndOfFile eofText []
  | v_bad {xs t rest} : xs.length < 3 → (∀ x ∈ xs, isFloat x = true) → isFloat t = false →
      StmtErr cfg lo hi (b!"v" :: (xs ++ t :: rest)) .ExpectedFloat (floatText t) rest
  | vt_eof : StmtErr cfg lo hi [b!"vt"] .EndOfFile eofText []
  | vt_bad {t rest} : isFloat t = false →
      StmtErr cfg lo hi (b!"vt" :: t :: rest) .ExpectedFloat (floatText t) rest
  | vn_eof {xs} : xs.length < 3 → (∀ x ∈ xs, isFloat x = true) →
      StmtErr cfg lo hi (b!"vn" :: xs) .EndOfFile eofText []
  | vn_bad {xs t rest} : xs.length < 3 → (∀ x ∈ xs, isFloat x = true) → isFloat t = false →
      StmtErr cfg lo hi (b!"vn" :: (xs ++ t :: rest)) .ExpectedFloat (floatText t) rest
  | s_eof : StmtErr cfg lo hi [b!"s"] .SmoothingGroupDeclarationHasNoName noSmoothText []
  | s_bad {t rest} : (∀ n, ¬ SmoothTok t n) →
      StmtErr cfg lo hi (b!"s" :: t :: rest) .SmoothingGroupNameMustBeOffOrInteger (smoothText t) rest
  | usemtl_eof : StmtErr cfg lo hi [b!"usemtl"] .MaterialStatementHasNoName noMaterialText []
  | p_eof : StmtErr cfg lo hi [b!"p"] .EndOfFile eofText []
  | p_bad {ts is t k m rest} : List.Forall₂ (NumTok lo.v hi.v) ts is → NumErr cfg lo.v hi.v t k m →
      (t = nl → ts = []) → StmtErr cfg lo hi (b!"p" :: (ts ++ t :: rest)) k m rest
  | l_eof {ts refs} : ts.length < 2 → List.Forall₂ (RefTok lo hi) ts refs →
      StmtErr cfg lo hi (b!"l" :: ts) .EndOfFile eofText []
  | l_bad {ts refs t k m rest} : ts.length < 2 → List.Forall₂ (RefTok lo hi) ts refs →
      RefErr cfg lo hi t k m → StmtErr cfg lo hi (b!"l" :: (ts ++ t :: rest)) k m rest
  | l_mixed {ts refs mid rest} : 2 ≤ refs.length → List.Forall₂ (RefTok lo hi) ts refs →
      ¬ Uniform refs → Stop cfg lo hi mid rest →
      StmtErr cfg lo hi (b!"l" :: (ts ++ mid))
        .EveryVTNIndexMustHaveTheSameFormForAGivenElement mixedLineText rest
  | f_few {ts refs mid rest} : refs.length < 3 → List.Forall₂ (RefTok lo hi) ts refs →
      Stop cfg lo hi mid rest →
      StmtErr cfg lo hi (b!"f" :: (ts ++ mid))
        .EveryFaceElementMustHaveAtLeastThreeVertices fewText rest
  | f_mixed {ts refs mid rest} : 3 ≤ refs.length → List.Forall₂ (RefTok lo hi) ts refs →
      ¬ Uniform refs → Stop cfg lo hi mid rest →
      StmtErr cfg lo hi (b!"f" :: (ts ++ mid))
        .EveryVTNIndexMustHaveTheSameFormForAGivenElement mixedFaceText rest
  | unknown {t rest} : t ∉ keywords →
      StmtErr cfg lo hi (t :: rest) .InvalidObjectStatement (unknownText t) (t :: rest)

/-- The statement at the start of `toks` makes the program panic, with `rest` unread. -/
inductive StmtPanic (cfg : Cfg) (lo hi : Counts) : List Tok → List Tok → Prop
  | p {ts is t rest} : List.Forall₂ (NumTok lo.v hi.v) ts is → NumPanic cfg hi.v t →
      StmtPanic cfg lo hi (b!"p" :: (ts ++ t :: rest)) rest
  | l {ts refs t rest} : List.Forall₂ (RefTok lo hi) ts refs → RefPanic cfg lo hi t →
      StmtPanic cfg lo hi (b!"l" :: (ts ++ t :: rest)) rest
  | f {ts refs t rest} : List.Forall₂ (RefTok lo hi) ts refs → RefPanic cfg lo hi t →
      StmtPanic cfg lo hi (b!"f" :: (ts ++ t :: rest)) rest

/-! ## Objects -/

/-- Where the statements of an object end. -/
def BodyEnd (toks : List Tok) : Prop := toks = [] ∨ toks.head? = some b!"o"

/-- The statements of an object; `lo` and `hi` as for references. -/
inductive Body (cfg : Cfg) (lo : Counts) : Counts → List Item → List Tok → List Tok → Prop
  | done {hi rest} : BodyEnd rest → Body cfg lo hi [] rest rest
  | blank {hi items toks rest} : Body cfg lo hi items toks rest →
      Body cfg lo hi items (nl :: toks) rest
  | stmt {hi it items toks mid rest} : Stmt cfg lo hi it toks mid →
      Body cfg lo (hi + it.counts) items mid rest → Body cfg lo hi (it :: items) toks rest

/-- The first rejected statement of an object. -/
inductive BodyErr (cfg : Cfg) (lo : Counts) :
    Counts → List Tok → ErrorKind → Bytes → List Tok → Prop
  | here {hi toks k m rest} : StmtErr cfg lo hi toks k m rest → BodyErr cfg lo hi toks k m rest
  | blank {hi toks k m rest} : BodyErr cfg lo hi toks k m rest →
      BodyErr cfg lo hi (nl :: toks) k m rest
  | later {hi it toks mid k m rest} : Stmt cfg lo hi it toks mid →
      BodyErr cfg lo (hi + it.counts) mid k m rest → BodyErr cfg lo hi toks k m rest

/-- A statement of an object panics. -/
inductive BodyPanic (cfg : Cfg) (lo : Counts) : Counts → List Tok → List Tok → Prop
  | here {hi toks rest} : StmtPanic cfg lo hi toks rest → BodyPanic cfg lo hi toks rest
  | blank {hi toks rest} : BodyPanic cfg lo hi toks rest → BodyPanic cfg lo hi (nl :: toks) rest
  | later {hi it toks mid rest} : Stmt cfg lo hi it toks mid →
      BodyPanic cfg lo (hi + it.counts) mid rest → BodyPanic cfg lo hi toks rest

/-- The name of an object. -/
inductive Header : List Tok → Bytes → List Tok → Prop
  | implicit {t rest} : t ≠ b!"o" → Header (t :: rest) [] (t :: rest)
  | named {name rest} : Header (b!"o" :: name :: nl :: rest) name rest

inductive HeaderErr : List Tok → ErrorKind → Bytes → List Tok → Prop
  | no_name : HeaderErr [b!"o"] .EndOfFile eofText []
  | no_line {name} : HeaderErr [b!"o", name] .EndOfFile eofText []
  | junk {name t rest} : t ≠ nl →
      HeaderErr (b!"o" :: name :: t :: rest) .ExpectedTagStatement (tagText nl t) rest

/-- The objects of a file; `lo` is what earlier objects have defined. -/
inductive Objects (cfg : Cfg) : Counts → List ObjAst → List Tok → Prop
  | done {lo} : Objects cfg lo [] []
  | obj {lo name items objs toks mid rest} : Header toks name mid → Body cfg lo lo items mid rest →
      ¬ Bare items → Objects cfg (lo + countsOf items) objs rest →
      Objects cfg lo (⟨name, items⟩ :: objs) toks

inductive ObjectsErr (cfg : Cfg) : Counts → List Tok → ErrorKind → Bytes → List Tok → Prop
  | header {lo toks k m rest} : HeaderErr toks k m rest → ObjectsErr cfg lo toks k m rest
  | body {lo name toks mid k m rest} : Header toks name mid → BodyErr cfg lo lo mid k m rest →
      ObjectsErr cfg lo toks k m rest
  | later {lo name items toks mid rest k m rest'} : Header toks name mid →
      Body cfg lo lo items mid rest → ¬ Bare items →
      ObjectsErr cfg (lo + countsOf items) rest k m rest' → ObjectsErr cfg lo toks k m rest'

inductive ObjectsPanic (cfg : Cfg) : Counts → List Tok → PanicSite → Prop
  | body {lo name toks mid rest} : Header toks name mid → BodyPanic cfg lo lo mid rest →
      ObjectsPanic cfg lo toks .indexSubOverflow
  | bare {lo name items toks mid rest} : Header toks name mid → Body cfg lo lo items mid rest →
      Bare items → ObjectsPanic cfg lo toks .materialIndex
  | later {lo name items toks mid rest x} : Header toks name mid →
      Body cfg lo lo items mid rest → ¬ Bare items →
      ObjectsPanic cfg (lo + countsOf items) rest x → ObjectsPanic cfg lo toks x

/-! ## Files -/

/-- The `mtllib` lines and blank lines at the head of a file. -/
inductive Libs : List Tok → List Bytes → List Tok → Prop
  | done {toks} : toks.head? ≠ some nl → toks.head? ≠ some b!"mtllib" → Libs toks [] toks
  | blank {toks libs rest} : Libs toks libs rest → Libs (nl :: toks) libs rest
  | line {names mid toks libs rest} : nl ∉ names → EndLine mid toks → Libs toks libs rest →
      Libs (b!"mtllib" :: (names ++ mid)) (names ++ libs) rest

def FileOk (cfg : Cfg) (toks : List Tok) (file : FileAst) : Prop :=
  ∃ rest, Libs toks file.libs rest ∧ Objects cfg {} file.objects rest

def FileErr (cfg : Cfg) (toks : List Tok) (k : ErrorKind) (m : Bytes) (unread : List Tok) : Prop :=
  ∃ libs rest, Libs toks libs rest ∧ ObjectsErr cfg {} rest k m unread

def FilePanic (cfg : Cfg) (toks : List Tok) (x : PanicSite) : Prop :=
  ∃ libs rest, Libs toks libs rest ∧ ObjectsPanic cfg {} rest x

/-! ## Meaning -/

/-- The stored index of a reference: positions within the object, counting from 0. -/
def Ref.resolve (lo : Counts) (r : Ref) : VTNIndex :=
  match r.vt, r.vn with
  | none, none => .V (r.v - 1 - lo.v)
  | some t, none => .VT (r.v - 1 - lo.v) (t - 1 - lo.vt)
  | none, some n => .VN (r.v - 1 - lo.v) (n - 1 - lo.vn)
  | some t, some n => .VTN (r.v - 1 - lo.v) (t - 1 - lo.vt) (n - 1 - lo.vn)

/-- Consecutive pairs. -/
def segments (l : List VTNIndex) : List Element := List.zipWith Element.Line l l.tail

/-- The triangle fan around the first vertex. -/
def fan : List VTNIndex → List Element
  | [] => []
  | a :: r => List.zipWith (Element.Face a) r r.tail

/-- The elements of a statement. -/
def Item.elements (lo : Counts) : Item → List Element
  | .p is => is.map fun k => .Point (.V (k - 1 - lo.v))
  | .l refs => segments (refs.map (Ref.resolve lo))
  | .f refs => fan (refs.map (Ref.resolve lo))
  | _ => []

section
variable {F : Type} [FloatSem F]

/-- An object under construction, with what is currently in force. -/
structure Acc (F : Type) where
  vertices : List (Vertex F) := []
  textures : List (TextureVertex F) := []
  normals : List (NormalVertex F) := []
  groups : List Group := []
  /-- the groups in force, as positions in `groups` -/
  inGroups : List Nat := []
  smoothing : List SmoothingGroup := []
  /-- the smoothing group in force, as a position in `smoothing` -/
  inSmoothing : Nat := 0
  elements : List Element := []
  shapes : List ShapeEntry := []
  geometries : List Geometry := []
  /-- the material in force and the elements that have it so far -/
  material : Option Bytes := none
  ofMaterial : List Nat := []

/-- Before an element, a group and a smoothing group must be in force. -/
def Acc.defaults (a : Acc F) : Acc F :=
  let a := if a.groups = [] then { a with groups := [⟨b!"default"⟩], inGroups := [0] } else a
  if a.smoothing = [] then { a with smoothing := [⟨0⟩], inSmoothing := 0 } else a

/-- Add elements, each with the groups, smoothing group and material in force. -/
def Acc.addElements (a : Acc F) (es : List Element) : Acc F :=
  let numbers := List.range' a.elements.length es.length
  { a with
    elements := a.elements ++ es
    shapes := a.shapes ++ numbers.map fun i =>
      { element := i, groups := a.inGroups, smoothing_group := a.inSmoothing }
    ofMaterial := a.ofMaterial ++ numbers }

/-- The effect of a statement. -/
def Acc.step (lo : Counts) (a : Acc F) : Item → Acc F
  | .v x y z w => { a with
      vertices := a.vertices ++ [⟨FloatSem.value x, FloatSem.value y, FloatSem.value z,
        (w.map FloatSem.value).getD FloatSem.one⟩] }
  | .vt u v w => { a with
      textures := a.textures ++ [⟨FloatSem.value u, (v.map FloatSem.value).getD FloatSem.zero,
        (w.map FloatSem.value).getD FloatSem.zero⟩] }
  | .vn x y z => { a with
      normals := a.normals ++ [⟨FloatSem.value x, FloatSem.value y, FloatSem.value z⟩] }
  | .g names => { a with
      groups := a.groups ++ names.map Group.mk
      inGroups := List.range' a.groups.length names.length }
  | .s n => { a with
      smoothing := a.smoothing ++ [⟨n⟩]
      inSmoothing := a.smoothing.length }
  | .usemtl name =>
      if a.ofMaterial = [] then { a with material := some name }
      else { a with
        geometries := a.geometries ++ [⟨a.material, a.ofMaterial⟩]
        material := some name
        ofMaterial := [] }
  | it => a.defaults.addElements (it.elements lo)

/-- The object described by a list of statements. -/
def objMeaning (lo : Counts) (o : ObjAst) : Object F :=
  let a : Acc F := o.items.foldl (Acc.step lo) {}
  { name := o.name
    vertex_set := a.vertices
    texture_vertex_set := a.textures
    normal_vertex_set := a.normals
    group_set := a.groups
    smoothing_group_set := a.smoothing
    element_set := a.elements
    shape_set := a.shapes
    geometry_set := a.geometries ++ [⟨a.material, a.ofMaterial⟩] }

/-- The objects of a file; references count through the whole file. -/
def objectsMeaning (lo : Counts) : List ObjAst → List (Object F)
  | [] => []
  | o :: os => objMeaning lo o :: objectsMeaning (lo + countsOf o.items) os

/-- The object set a file denotes. -/
def meaning (file : FileAst) : ObjectSet F :=
  { material_libraries := file.libs, objects := objectsMeaning {} file.objects }

end

end Verif.Spec.Obj
