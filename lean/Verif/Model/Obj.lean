import Verif.Model.Parser

/-!
# Model of `src/obj.rs` (data types and parser)

`F` stands for `f64`.  A `Vec` is a list; `&mut Vec` parameters that a method
pushes to become returned lists (on an `Err` the whole parse is abandoned, so a
partially extended vector is never observed).
-/

namespace Verif.Obj

open Verif

/-! ## Data types -/

/-- `struct Vertex` (obj.rs:119-130). -/
structure Vertex (F : Type) where
  x : F
  y : F
  z : F
  w : F
deriving DecidableEq, Repr

/-- `struct TextureVertex` (obj.rs:139-148). -/
structure TextureVertex (F : Type) where
  u : F
  v : F
  w : F
deriving DecidableEq, Repr

/-- `struct NormalVertex` (obj.rs:157-166). -/
structure NormalVertex (F : Type) where
  x : F
  y : F
  z : F
deriving DecidableEq, Repr

/-- `enum VTNIndex` (obj.rs:183-189). -/
inductive VTNIndex where
  | V (v : Nat)
  | VT (v vt : Nat)
  | VN (v vn : Nat)
  | VTN (v vt vn : Nat)
deriving DecidableEq, Repr

/-- `VTNIndex::has_same_type_as` (obj.rs:228-236). -/
def VTNIndex.has_same_type_as : VTNIndex → VTNIndex → Bool
  | .V _, .V _ => true
  | .VT _ _, .VT _ _ => true
  | .VN _ _, .VN _ _ => true
  | .VTN _ _ _, .VTN _ _ _ => true
  | _, _ => false

/-- `enum Element` (obj.rs:278-283). -/
inductive Element where
  | Point (a : VTNIndex)
  | Line (a b : VTNIndex)
  | Face (a b c : VTNIndex)
deriving DecidableEq, Repr

/-- `struct Group(pub String)` (obj.rs:305-306). -/
structure Group where
  name : Bytes
deriving DecidableEq, Repr

/-- `impl Default for Group` (obj.rs:314-318). -/
def Group.default : Group := ⟨b!"default"⟩

/-- `struct SmoothingGroup(pub usize)` (obj.rs:323-324). -/
structure SmoothingGroup where
  number : Nat
deriving DecidableEq, Repr

/-- `#[derive(Default)]` of `SmoothingGroup` (obj.rs:323). -/
def SmoothingGroup.default : SmoothingGroup := ⟨0⟩

/-- `struct ShapeEntry` (obj.rs:338-346). -/
structure ShapeEntry where
  element : Nat
  groups : List Nat
  smoothing_group : Nat
deriving DecidableEq, Repr

/-- `struct Geometry` (obj.rs:366-373). -/
structure Geometry where
  material_name : Option Bytes
  shapes : List Nat
deriving DecidableEq, Repr

/-- `enum VTNTriple` (obj.rs:376-382); references are values. -/
inductive VTNTriple (F : Type) where
  | V (v : Vertex F)
  | VT (v : Vertex F) (vt : TextureVertex F)
  | VN (v : Vertex F) (vn : NormalVertex F)
  | VTN (v : Vertex F) (vt : TextureVertex F) (vn : NormalVertex F)
deriving DecidableEq, Repr

/-- `struct Object` (obj.rs:387-408). -/
structure Object (F : Type) where
  name : Bytes
  vertex_set : List (Vertex F)
  texture_vertex_set : List (TextureVertex F)
  normal_vertex_set : List (NormalVertex F)
  group_set : List Group
  smoothing_group_set : List SmoothingGroup
  element_set : List Element
  shape_set : List ShapeEntry
  geometry_set : List Geometry
deriving DecidableEq, Repr

/-- `Object::get_vtn_triple` (obj.rs:494-521). -/
def Object.get_vtn_triple {F : Type} (self : Object F) : VTNIndex → Option (VTNTriple F)
  | .V v_index => do
    let vertex ← self.vertex_set[v_index]?
    some (.V vertex)
  | .VT v_index vt_index => do
    let vertex ← self.vertex_set[v_index]?
    let texture_vertex ← self.texture_vertex_set[vt_index]?
    some (.VT vertex texture_vertex)
  | .VN v_index vn_index => do
    let vertex ← self.vertex_set[v_index]?
    let normal_vertex ← self.normal_vertex_set[vn_index]?
    some (.VN vertex normal_vertex)
  | .VTN v_index vt_index vn_index => do
    let vertex ← self.vertex_set[v_index]?
    let texture_vertex ← self.texture_vertex_set[vt_index]?
    let normal_vertex ← self.normal_vertex_set[vn_index]?
    some (.VTN vertex texture_vertex normal_vertex)

/-- `struct ObjectSet` (obj.rs:568-574). -/
structure ObjectSet (F : Type) where
  material_libraries : List Bytes
  objects : List (Object F)
deriving DecidableEq, Repr

/-- `enum ErrorKind` (obj.rs:594-623). -/
inductive ErrorKind where
  | EndOfFile
  | ExpectedTagStatement
  | ExpectedFloat
  | ExpectedInteger
  | ExpectedVTNIndex
  | VTNIndexOutOfRange
  | EveryFaceElementMustHaveAtLeastThreeVertices
  | EveryVTNIndexMustHaveTheSameFormForAGivenElement
  | InvalidObjectStatement
  | ElementMustBeAPointLineOrFace
  | SmoothingGroupNameMustBeOffOrInteger
  | SmoothingGroupDeclarationHasNoName
  | MaterialStatementHasNoName
deriving DecidableEq, Repr

/-- The build profile: Cargo's `overflow-checks` and `debug-assertions` (both on
in debug builds, both off in release builds). -/
structure Cfg where
  overflow_checks : Bool
  debug_assertions : Bool
deriving DecidableEq, Repr

/-! ## Free functions -/

/-- `fn triangulate` (obj.rs:676-684). `none` is a panic: a slice index out of
bounds, or (for fewer than two indices) the underflow of `len() - 2`, which
panics with overflow checks and without them leads to an index out of bounds. -/
def triangulate (elements : List Element) (vtn_indices : List VTNIndex) :
    Option (List Element × Nat) := do
  let vertex0 ← vtn_indices[0]?
  if vtn_indices.length < 2 then none
  else
    let faces ← (List.range (vtn_indices.length - 2)).mapM fun i => do
      let b ← vtn_indices[i + 1]?
      let c ← vtn_indices[i + 2]?
      some (Element.Face vertex0 b c)
    some (elements ++ faces, vtn_indices.length - 2)

/-- `fn verify_vtn_indices` (obj.rs:687-696). The indices `i` in `1..len` and `0`
are in bounds whenever the loop body runs. -/
def verify_vtn_indices : List VTNIndex → Bool
  | [] => true
  | first :: others => others.all fun i => i.has_same_type_as first

/-- Two's complement wrap-around of `isize` on a 64-bit target. -/
def wrapIsize (x : Int) : Int := (x + 2 ^ 63) % 2 ^ 64 - 2 ^ 63

/-! ## The parser -/

section
variable {σ : Type} [TokStream σ]

/-- A parser method of `obj::Parser`. -/
abbrev OP (σ α : Type) := P σ ErrorKind α

/-- `Parser::next_string` (obj.rs:734-746). -/
def next_string : OP σ Tok := do
  match ← P.next with
  | some st => return st
  | none =>
      P.error .EndOfFile
        b!"Reached the end of the input in the process of getting the next token."

/-- `Parser::expect_tag` (obj.rs:748-764). -/
def expect_tag (tag : Tok) : OP σ Unit := do
  match ← P.next with
  | none =>
      P.error .EndOfFile
        b!"Reached the end of the input in the process of getting the next token."
  | some st =>
    if st ≠ tag then
      P.error .ExpectedTagStatement (b!"Expected `" ++ tag ++ b!"` but got `" ++ st ++ b!"` instead.")
    else return ()

/-- `Parser::parse_f64` (obj.rs:766-776). -/
def parse_f64 {F : Type} [FloatSem F] : OP σ F := do
  let st ← next_string
  match parseF64 st with
  | some val => return val
  | none =>
      P.error .ExpectedFloat
        (b!"Expected a floating point number but got `" ++ st ++ b!"` instead.")

/-- The error text shared by `parse_isize` (obj.rs:785), `parse_vtn_index`
(obj.rs:916) and `parse_point` (obj.rs:1011). -/
def expectedInteger (st : Tok) : Bytes := b!"Expected an integer but got `" ++ st ++ b!"` instead."

/-- `Parser::parse_isize` (obj.rs:778-788). -/
def parse_isize : OP σ Int := do
  let st ← next_string
  match parseIsize st with
  | some val => return val
  | none => P.error .ExpectedInteger (expectedInteger st)

/-- `Parser::try_once` (obj.rs:790-806), for the only argument it is used with:
`|st| st.parse::<f64>().ok()`. -/
def try_once_f64 {F : Type} [FloatSem F] : OP σ (Option F) := do
  match ← P.peek with
  | some st =>
    match parseF64 st with
    | some got => do
      P.advance
      return some got
    | none => return none
  | none => return none

/-- `Parser::parse_vertex` (obj.rs:808-824). -/
def parse_vertex {F : Type} [FloatSem F] : OP σ (Vertex F) := do
  expect_tag b!"v"
  let x ← parse_f64
  let y ← parse_f64
  let z ← parse_f64
  let mw ← try_once_f64
  let w := mw.getD FloatSem.one
  return { x := x, y := y, z := z, w := w }

/-- `Parser::parse_texture_vertex` (obj.rs:826-837). -/
def parse_texture_vertex {F : Type} [FloatSem F] : OP σ (TextureVertex F) := do
  expect_tag b!"vt"
  let u ← parse_f64
  let mv ← try_once_f64
  let v := mv.getD FloatSem.zero
  let mw ← try_once_f64
  let w := mw.getD FloatSem.zero
  return { u := u, v := v, w := w }

/-- `Parser::parse_normal_vertex` (obj.rs:839-848). -/
def parse_normal_vertex {F : Type} [FloatSem F] : OP σ (NormalVertex F) := do
  expect_tag b!"vn"
  let x ← parse_f64
  let y ← parse_f64
  let z ← parse_f64
  return { x := x, y := y, z := z }

/-- `Parser::skip_one_or_more_newlines` (obj.rs:857-864). -/
def skip_one_or_more_newlines (fuel : Nat) : OP σ Unit := do
  expect_tag nl
  P.skip_zero_or_more_newlines fuel
  return ()

/-- `Parser::parse_object_name` (obj.rs:866-878). Line 871 keeps the `Result` of
`next_string` and returns it only after the newlines have been skipped. -/
def parse_object_name (fuel : Nat) : OP σ Tok := do
  match ← P.peek with
  | some t =>
    if t = b!"o" then do
      expect_tag b!"o"
      let object_name ← P.attempt next_string
      skip_one_or_more_newlines fuel
      P.ofResult object_name
    else return []
  | none => return []

/-- `Parser::calculate_index` (obj.rs:880-901). `usize as isize` is the identity
here because counters stay below `2^63` (theorem C40). `parsed_value - 1` cannot
overflow in its branch. -/
def calculate_index (cfg : Cfg) (value_range : Nat × Nat) (parsed_value : Int) : OP σ Nat := do
  let min_value := value_range.1
  let max_value := value_range.2
  let actual_value : Int ←
    (if parsed_value ≤ 0 then
      let exact := (max_value : Int) - parsed_value
      if isizeMin ≤ exact ∧ exact ≤ isizeMax then pure exact
      else if cfg.overflow_checks then P.panic .indexSubOverflow
      else pure (wrapIsize exact)
    else pure (parsed_value - 1) : OP σ Int)
  if actual_value ≥ (min_value : Int) ∧ actual_value < (max_value : Int) then
    if cfg.debug_assertions ∧ ¬ (actual_value ≥ 0) then P.panic .indexNegative
    else return (actual_value - (min_value : Int)).toNat
  else
    P.error .VTNIndexOutOfRange
      (b!"Expected index in range [" ++ showNat min_value ++ b!", " ++ showNat max_value ++
        b!"), but got " ++ showInt actual_value ++ b!".")

/-- The three index ranges `(min, max)` handed to the element parsers
(obj.rs:906-908 and elsewhere). -/
structure Ranges where
  vertex : Nat × Nat
  texture : Nat × Nat
  normal : Nat × Nat
deriving DecidableEq, Repr

/-- The closure `process_split` of `parse_vtn_index` (obj.rs:911-924). -/
def process_split (cfg : Cfg) (split : Bytes) (value_range : Nat × Nat) : OP σ (Option Nat) :=
  if split ≠ [] then do
    let parsed_value ← (match parseIsize split with
      | some v => pure v
      | none => P.error .ExpectedInteger (expectedInteger split) : OP σ Int)
    let index ← calculate_index cfg value_range parsed_value
    return some index
  else return none

/-- `splits_iter.next().and_then(|s| process_split(s, range).transpose()).transpose()`
(obj.rs:927-938): a missing piece counts as an empty one. -/
def process_next_split (cfg : Cfg) (piece : Option Bytes) (value_range : Nat × Nat) :
    OP σ (Option Nat) :=
  match piece with
  | some s => process_split cfg s value_range
  | none => return none

/-- The message of `ExpectedVTNIndex` (obj.rs:942-945, 956-959). -/
def expectedVTN (st : Tok) : Bytes :=
  b!"Expected a `vertex/texture/normal` index but got `" ++ st ++ b!"` instead."

/-- `Parser::parse_vtn_index` (obj.rs:903-962). The iterator over the pieces of
`st.split('/')` is a list, `next` takes the head. -/
def parse_vtn_index (cfg : Cfg) (r : Ranges) : OP σ VTNIndex := do
  let st ← next_string
  let splits_iter := splitByte 47 st
  let split1 ← process_next_split cfg splits_iter[0]? r.vertex
  let split2 ← process_next_split cfg splits_iter[1]? r.texture
  let split3 ← process_next_split cfg splits_iter[2]? r.normal
  if split1.isNone ∨ splits_iter[3]?.isSome then
    P.error .ExpectedVTNIndex (expectedVTN st)
  else
    match split1, split2, split3 with
    | some v, none, none => return .V v
    | some v, none, some vn => return .VN v vn
    | some v, some vt, none => return .VT v vt
    | some v, some vt, some vn => return .VTN v vt vn
    | _, _, _ => P.error .ExpectedVTNIndex (expectedVTN st)

/-- `Parser::parse_vtn_indices` (obj.rs:964-983): read indices until one fails;
the failing token has been consumed and its error is dropped. The count that the
Rust function returns is ignored by both callers and not modelled. -/
def parse_vtn_indices (cfg : Cfg) (r : Ranges) : Nat → List VTNIndex → OP σ (List VTNIndex)
  | 0, _ => P.outOfFuel
  | fuel + 1, vtn_indices => do
    match ← P.attempt (parse_vtn_index cfg r) with
    | .ok vtn_index => parse_vtn_indices cfg r fuel (vtn_indices ++ [vtn_index])
    | .error _ => return vtn_indices

/-- The loop of `Parser::parse_point` (obj.rs:1000-1017). -/
def parse_point_loop (cfg : Cfg) (vertex_index_range : Nat × Nat) :
    Nat → List Element → Nat → OP σ (List Element × Nat)
  | 0, _, _ => P.outOfFuel
  | fuel + 1, elements, elements_parsed => do
    match ← P.next with
    | some st =>
      if st ≠ nl then
        match parseIsize st with
        | some val => do
          let v_index ← calculate_index cfg vertex_index_range val
          parse_point_loop cfg vertex_index_range fuel
            (elements ++ [Element.Point (.V v_index)]) (elements_parsed + 1)
        | none => P.error .ExpectedInteger (expectedInteger st)
      else return (elements, elements_parsed)
    | none => return (elements, elements_parsed)

/-- `Parser::parse_point` (obj.rs:985-1020). -/
def parse_point (cfg : Cfg) (fuel : Nat) (elements : List Element) (vertex_index_range : Nat × Nat) :
    OP σ (List Element × Nat) := do
  expect_tag b!"p"
  let parsed_value ← parse_isize
  let v_index ← calculate_index cfg vertex_index_range parsed_value
  parse_point_loop cfg vertex_index_range fuel (elements ++ [Element.Point (.V v_index)]) 1

/-- The loop building line elements (obj.rs:1060-1065); `none` is a panic. -/
def lineSegments (elements : List Element) (vtn_indices : List VTNIndex) :
    Option (List Element × Nat) :=
  if vtn_indices.length < 1 then none
  else do
    let segs ← (List.range (vtn_indices.length - 1)).mapM fun i => do
      let a ← vtn_indices[i]?
      let b ← vtn_indices[i + 1]?
      some (Element.Line a b)
    some (elements ++ segs, vtn_indices.length - 1)

/-- `Parser::parse_line` (obj.rs:1022-1066). -/
def parse_line (cfg : Cfg) (fuel : Nat) (elements : List Element) (r : Ranges) :
    OP σ (List Element × Nat) := do
  expect_tag b!"l"
  let i0 ← parse_vtn_index cfg r
  let i1 ← parse_vtn_index cfg r
  let vtn_indices ← parse_vtn_indices cfg r fuel [i0, i1]
  if verify_vtn_indices vtn_indices = false then
    P.error .EveryVTNIndexMustHaveTheSameFormForAGivenElement
      b!"Every VTN index for a line must have the same form."
  else
    match lineSegments elements vtn_indices with
    | some res => return res
    | none => P.panic .lineSegments

/-- `Parser::parse_face` (obj.rs:1068-1112). -/
def parse_face (cfg : Cfg) (fuel : Nat) (elements : List Element) (r : Ranges) :
    OP σ (List Element × Nat) := do
  expect_tag b!"f"
  let vtn_indices ← parse_vtn_indices cfg r fuel []
  if vtn_indices.length < 3 then
    P.error .EveryFaceElementMustHaveAtLeastThreeVertices
      b!"A face primitive must have at least three vertices."
  else if verify_vtn_indices vtn_indices = false then
    P.error .EveryVTNIndexMustHaveTheSameFormForAGivenElement
      b!"Every VTN index for a face must have the same form."
  else
    match triangulate elements vtn_indices with
    | some res => return res
    | none => P.panic .triangulate

/-- `Parser::parse_elements` (obj.rs:1114-1141). -/
def parse_elements (cfg : Cfg) (fuel : Nat) (elements : List Element) (r : Ranges) :
    OP σ (List Element × Nat) := do
  let t ← P.peek
  if t = some b!"p" then parse_point cfg fuel elements r.vertex
  else if t = some b!"l" then parse_line cfg fuel elements r
  else if t = some b!"f" then parse_face cfg fuel elements r
  else
      P.error .ElementMustBeAPointLineOrFace
        b!"An element must be a point (`p`), line (`l`), or face (`f`)."

/-- The loop of `Parser::parse_groups` (obj.rs:1147-1155). -/
def parse_groups_loop : Nat → List Group → Nat → OP σ (List Group × Nat)
  | 0, _, _ => P.outOfFuel
  | fuel + 1, groups, groups_parsed => do
    match ← P.next with
    | some name =>
      if name ≠ nl then parse_groups_loop fuel (groups ++ [⟨name⟩]) (groups_parsed + 1)
      else return (groups, groups_parsed)
    | none => return (groups, groups_parsed)

/-- `Parser::parse_groups` (obj.rs:1143-1158). -/
def parse_groups (fuel : Nat) (groups : List Group) : OP σ (List Group × Nat) := do
  expect_tag b!"g"
  parse_groups_loop fuel groups 0

/-- `Parser::parse_smoothing_group` (obj.rs:1160-1189). -/
def parse_smoothing_group (smoothing_groups : List SmoothingGroup) : OP σ (List SmoothingGroup) := do
  expect_tag b!"s"
  match ← P.next with
  | some name =>
    if name = b!"off" then return smoothing_groups ++ [⟨0⟩]
    else
      match parseUsize name with
      | some number => return smoothing_groups ++ [⟨number⟩]
      | none =>
          P.error .SmoothingGroupNameMustBeOffOrInteger
            (b!"A smoothing group name must either be `off`, which denotes that an object has no smoothing groups, or an integer. The parser got `"
            ++ name ++ b!"` instead.")
  | none =>
      P.error .SmoothingGroupDeclarationHasNoName
        b!"Got a smoothing group declaration without a smoothing group name."

/-- `Parser::parse_material_name` (obj.rs:1191-1207). -/
def parse_material_name (material_names : List (Option Bytes)) : OP σ (List (Option Bytes)) := do
  expect_tag b!"usemtl"
  match ← P.next with
  | some name => return material_names ++ [some name]
  | none =>
      P.error .MaterialStatementHasNoName
        b!"Got a `usemtl` material declaration without a material name."

/-! ### Building the shape and geometry tables -/

/-- `(a..b).collect()` on `usize`. -/
def rangeVec (a b : Nat) : List Nat := List.range' a (b - a)

/-- The first loop of `Parser::parse_shape_entries` (obj.rs:1219-1229). -/
def shapesOfGroups (group_entry_table : List ((Nat × Nat) × (Nat × Nat))) : List ShapeEntry :=
  group_entry_table.flatMap fun e =>
    let groups := rangeVec e.2.1 e.2.2
    (rangeVec e.1.1 e.1.2).map fun i => { element := i, groups := groups, smoothing_group := 0 }

/-- `shape_entry_table[i].smoothing_group = smoothing_group_index` (obj.rs:1234);
`none` is an index out of bounds. -/
def setSmoothing (table : List ShapeEntry) (i sg : Nat) : Option (List ShapeEntry) :=
  if i < table.length then some (table.modify i fun e => { e with smoothing_group := sg })
  else none

/-- The second loop of `Parser::parse_shape_entries` (obj.rs:1232-1236). -/
def applySmoothing (table : List ShapeEntry) (entries : List ((Nat × Nat) × Nat)) :
    Option (List ShapeEntry) :=
  entries.foldlM (fun table e =>
    (rangeVec e.1.1 e.1.2).foldlM (fun table i => setSmoothing table i e.2) table) table

/-- `Parser::parse_shape_entries` (obj.rs:1209-1238), applied to an empty table
as at its only call site. -/
def parse_shape_entries (cfg : Cfg) (elements : List Element)
    (group_entry_table : List ((Nat × Nat) × (Nat × Nat)))
    (smoothing_group_entry_table : List ((Nat × Nat) × Nat)) : Out ErrorKind (List ShapeEntry) :=
  let shape_entry_table := shapesOfGroups group_entry_table
  if cfg.debug_assertions ∧ shape_entry_table.length ≠ elements.length then .panic .shapeCount
  else
    match applySmoothing shape_entry_table smoothing_group_entry_table with
    | none => .panic .shapeIndex
    | some table =>
      if cfg.debug_assertions ∧ table.length ≠ elements.length then .panic .shapeCount
      else .ok table

/-- `Parser::parse_geometries` (obj.rs:1240-1256), applied to an empty vector. -/
def parse_geometries (material_name_entry_table : List ((Nat × Nat) × Nat))
    (material_names : List (Option Bytes)) : Out ErrorKind (List Geometry) :=
  match material_name_entry_table.mapM (fun e => do
      let material_name ← material_names[e.2]?
      some { material_name := material_name, shapes := rangeVec e.1.1 e.1.2 : Geometry }) with
  | some geometries => .ok geometries
  | none => .panic .materialIndex

/-! ### Objects -/

/-- The six counters that `parse_objects` hands to `parse_object` by `&mut`
(obj.rs:1294-1299, 1497-1502). -/
structure Counters where
  min_vertex_index : Nat := 0
  max_vertex_index : Nat := 0
  min_texture_index : Nat := 0
  max_texture_index : Nat := 0
  min_normal_index : Nat := 0
  max_normal_index : Nat := 0
deriving DecidableEq, Repr

/-- The local variables of `Parser::parse_object` (obj.rs:1303-1325), together
with the counters. -/
structure ObjState (F : Type) where
  ctr : Counters
  vertices : List (Vertex F) := []
  texture_vertices : List (TextureVertex F) := []
  normal_vertices : List (NormalVertex F) := []
  elements : List Element := []
  group_entry_table : List ((Nat × Nat) × (Nat × Nat)) := []
  groups : List Group := []
  min_element_group_index : Nat := 0
  max_element_group_index : Nat := 0
  min_group_index : Nat := 0
  max_group_index : Nat := 0
  smoothing_group_entry_table : List ((Nat × Nat) × Nat) := []
  smoothing_groups : List SmoothingGroup := []
  min_element_smoothing_group_index : Nat := 0
  max_element_smoothing_group_index : Nat := 0
  smoothing_group_index : Nat := 0
  material_name_entry_table : List ((Nat × Nat) × Nat) := []
  material_names : List (Option Bytes) := []
  min_element_material_name_index : Nat := 0
  max_element_material_name_index : Nat := 0
  material_name_index : Nat := 0
deriving DecidableEq, Repr

variable {F : Type} [FloatSem F]

/-- The arms `Some("g")` of `parse_object` (obj.rs:1331-1346). -/
def step_g (fuel : Nat) (st : ObjState F) : OP σ (ObjState F) := do
  if st.groups.isEmpty then
    let r ← parse_groups fuel st.groups
    return { st with groups := r.1, max_group_index := st.max_group_index + r.2 }
  else
    let table := st.group_entry_table ++
      [((st.min_element_group_index, st.max_element_group_index),
        (st.min_group_index, st.max_group_index))]
    let r ← parse_groups fuel st.groups
    return { st with
      group_entry_table := table
      groups := r.1
      min_group_index := st.max_group_index
      max_group_index := st.max_group_index + r.2
      min_element_group_index := st.max_element_group_index }

/-- The arms `Some("s")` of `parse_object` (obj.rs:1347-1364). -/
def step_s (st : ObjState F) : OP σ (ObjState F) := do
  if st.smoothing_groups.isEmpty then
    let sg ← parse_smoothing_group st.smoothing_groups
    return { st with smoothing_groups := sg, smoothing_group_index := 0 }
  else
    let table := st.smoothing_group_entry_table ++
      [((st.min_element_smoothing_group_index, st.max_element_smoothing_group_index),
        st.smoothing_group_index)]
    let sg ← parse_smoothing_group st.smoothing_groups
    return { st with
      smoothing_group_entry_table := table
      smoothing_groups := sg
      smoothing_group_index := st.smoothing_group_index + 1
      min_element_smoothing_group_index := st.max_element_smoothing_group_index }

/-- The arm `Some("usemtl")` of `parse_object` (obj.rs:1365-1388). -/
def step_usemtl (st : ObjState F) : OP σ (ObjState F) := do
  let st1 : ObjState F ←
    (if st.min_element_material_name_index = st.max_element_material_name_index then do
      if st.material_names.isEmpty then
        let m ← parse_material_name st.material_names
        return { st with material_names := m }
      else
        let m ← parse_material_name st.material_names
        return { st with material_names := m, material_name_index := st.material_name_index + 1 }
    else do
      let table := st.material_name_entry_table ++
        [((st.min_element_material_name_index, st.max_element_material_name_index),
          st.material_name_index)]
      if st.material_names.isEmpty then
        let m ← parse_material_name st.material_names
        return { st with material_name_entry_table := table, material_names := m }
      else
        let m ← parse_material_name st.material_names
        return { st with
          material_name_entry_table := table
          material_names := m
          material_name_index := st.material_name_index + 1 } : OP σ (ObjState F))
  return { st1 with min_element_material_name_index := st1.max_element_material_name_index }

/-- The arms `Some("v")`, `Some("vt")`, `Some("vn")` of `parse_object`
(obj.rs:1389-1403). -/
def step_v (st : ObjState F) : OP σ (ObjState F) := do
  let vertex ← parse_vertex
  return { st with
    vertices := st.vertices ++ [vertex]
    ctr := { st.ctr with max_vertex_index := st.ctr.max_vertex_index + 1 } }

@[inherit_doc step_v]
def step_vt (st : ObjState F) : OP σ (ObjState F) := do
  let texture_vertex ← parse_texture_vertex
  return { st with
    texture_vertices := st.texture_vertices ++ [texture_vertex]
    ctr := { st.ctr with max_texture_index := st.ctr.max_texture_index + 1 } }

@[inherit_doc step_v]
def step_vn (st : ObjState F) : OP σ (ObjState F) := do
  let normal_vertex ← parse_normal_vertex
  return { st with
    normal_vertices := st.normal_vertices ++ [normal_vertex]
    ctr := { st.ctr with max_normal_index := st.ctr.max_normal_index + 1 } }

/-- The defaults filled in before the first element (obj.rs:1405-1419). -/
def fillDefaults (st : ObjState F) : ObjState F :=
  let st := if st.groups.isEmpty then
      { st with groups := st.groups ++ [Group.default], min_group_index := 0, max_group_index := 1 }
    else st
  let st := if st.smoothing_groups.isEmpty then
      { st with
        smoothing_groups := st.smoothing_groups ++ [SmoothingGroup.default]
        smoothing_group_index := 0 }
    else st
  if st.material_names.isEmpty then
    { st with material_names := st.material_names ++ [none], material_name_index := 0 }
  else st

/-- The ranges passed to `parse_elements` (obj.rs:1423-1425). -/
def Counters.ranges (c : Counters) : Ranges where
  vertex := (c.min_vertex_index, c.max_vertex_index)
  texture := (c.min_texture_index, c.max_texture_index)
  normal := (c.min_normal_index, c.max_normal_index)

/-- The arm `Some("p") | Some("l") | Some("f")` of `parse_object` (obj.rs:1404-1430). -/
def step_element (cfg : Cfg) (fuel : Nat) (st : ObjState F) : OP σ (ObjState F) := do
  let st := fillDefaults st
  let r ← parse_elements cfg fuel st.elements st.ctr.ranges
  return { st with
    elements := r.1
    max_element_group_index := st.max_element_group_index + r.2
    max_element_smoothing_group_index := st.max_element_smoothing_group_index + r.2
    max_element_material_name_index := st.max_element_material_name_index + r.2 }

/-- The arm `Some("o") | None` of `parse_object` (obj.rs:1434-1455). -/
def closeTables (st : ObjState F) : ObjState F :=
  { st with
    group_entry_table := st.group_entry_table ++
      [((st.min_element_group_index, st.max_element_group_index),
        (st.min_group_index, st.max_group_index))]
    smoothing_group_entry_table := st.smoothing_group_entry_table ++
      [((st.min_element_smoothing_group_index, st.max_element_smoothing_group_index),
        st.smoothing_group_index)]
    material_name_entry_table := st.material_name_entry_table ++
      [((st.min_element_material_name_index, st.max_element_material_name_index),
        st.material_name_index)] }

/-- The main loop of `Parser::parse_object` (obj.rs:1329-1463). -/
def object_loop (cfg : Cfg) (fuel0 : Nat) : Nat → ObjState F → OP σ (ObjState F)
  | 0, _ => P.outOfFuel
  | fuel + 1, st => do
    match ← P.peek with
    | none => return closeTables st
    | some t =>
      if t = b!"g" then do
        let st ← step_g fuel0 st
        object_loop cfg fuel0 fuel st
      else if t = b!"s" then do
        let st ← step_s st
        object_loop cfg fuel0 fuel st
      else if t = b!"usemtl" then do
        let st ← step_usemtl st
        object_loop cfg fuel0 fuel st
      else if t = b!"v" then do
        let st ← step_v st
        object_loop cfg fuel0 fuel st
      else if t = b!"vt" then do
        let st ← step_vt st
        object_loop cfg fuel0 fuel st
      else if t = b!"vn" then do
        let st ← step_vn st
        object_loop cfg fuel0 fuel st
      else if t = b!"p" ∨ t = b!"l" ∨ t = b!"f" then do
        let st ← step_element cfg fuel0 st
        object_loop cfg fuel0 fuel st
      else if t = nl then do
        skip_one_or_more_newlines fuel0
        object_loop cfg fuel0 fuel st
      else if t = b!"o" then return closeTables st
      else
          P.error .InvalidObjectStatement
            (b!"Unsupported or invalid object statement `" ++ t ++ b!"`.")

/-- The counters after an object (obj.rs:1476-1478). -/
def bumpCounters (st : ObjState F) : Counters :=
  { st.ctr with
    min_vertex_index := st.ctr.min_vertex_index + st.vertices.length
    min_texture_index := st.ctr.min_texture_index + st.texture_vertices.length
    min_normal_index := st.ctr.min_normal_index + st.normal_vertices.length }

/-- The end of `Parser::parse_object` (obj.rs:1465-1490): build the tables. -/
def finishObject (cfg : Cfg) (object_name : Tok) (st : ObjState F) :
    Out ErrorKind (Object F × Counters) :=
  match parse_shape_entries cfg st.elements st.group_entry_table st.smoothing_group_entry_table with
  | .ok shape_entries =>
    match parse_geometries st.material_name_entry_table st.material_names with
    | .ok geometries =>
      .ok ({ name := object_name
             vertex_set := st.vertices
             texture_vertex_set := st.texture_vertices
             normal_vertex_set := st.normal_vertices
             group_set := st.groups
             smoothing_group_set := st.smoothing_groups
             element_set := st.elements
             shape_set := shape_entries
             geometry_set := geometries }, bumpCounters st)
    | .err e => .err e
    | .panic x => .panic x
    | .outOfFuel => .outOfFuel
  | .err e => .err e
  | .panic x => .panic x
  | .outOfFuel => .outOfFuel

/-- `Parser::parse_object` (obj.rs:1291-1491). -/
def parse_object (cfg : Cfg) (fuel : Nat) (ctr : Counters) : OP σ (Object F × Counters) := do
  let object_name ← parse_object_name fuel
  let st ← object_loop cfg fuel fuel { ctr := ctr }
  P.lift (finishObject cfg object_name st)

/-- The `while` loop of `Parser::parse_objects` (obj.rs:1505-1515). -/
def parse_objects_loop (cfg : Cfg) (fuel0 : Nat) :
    Nat → Counters → List (Object F) → OP σ (List (Object F))
  | 0, _, _ => P.outOfFuel
  | fuel + 1, ctr, result => do
    match ← P.peek with
    | none => return result
    | some _ => do
      let r ← parse_object cfg fuel0 ctr
      P.skip_zero_or_more_newlines fuel0
      parse_objects_loop cfg fuel0 fuel r.2 (result ++ [r.1])

/-- `Parser::parse_objects` (obj.rs:1493-1518). -/
def parse_objects (cfg : Cfg) (fuel : Nat) : OP σ (List (Object F)) := do
  P.skip_zero_or_more_newlines fuel
  parse_objects_loop cfg fuel fuel {} []

/-- The loop of `Parser::parse_material_library_line` (obj.rs:1527-1535). The
returned count is ignored by the caller and not modelled. -/
def mtllib_line_loop : Nat → List Bytes → OP σ (List Bytes)
  | 0, _ => P.outOfFuel
  | fuel + 1, material_libraries => do
    match ← P.next with
    | some st =>
      if st ≠ nl then mtllib_line_loop fuel (material_libraries ++ [st])
      else return material_libraries
    | none => return material_libraries

/-- `Parser::parse_material_library_line` (obj.rs:1520-1538). -/
def parse_material_library_line (fuel : Nat) (material_libraries : List Bytes) : OP σ (List Bytes) := do
  expect_tag b!"mtllib"
  mtllib_line_loop fuel material_libraries

/-- The `while` loop of `Parser::parse_material_libraries` (obj.rs:1544-1547). -/
def mtllibs_loop (fuel0 : Nat) : Nat → List Bytes → OP σ (List Bytes)
  | 0, _ => P.outOfFuel
  | fuel + 1, material_libraries => do
    let t ← P.peek
    if t = some b!"mtllib" then do
      let m ← parse_material_library_line fuel0 material_libraries
      P.skip_zero_or_more_newlines fuel0
      mtllibs_loop fuel0 fuel m
    else return material_libraries

/-- `Parser::parse_material_libraries` (obj.rs:1540-1550). -/
def parse_material_libraries (fuel : Nat) : OP σ (List Bytes) := do
  P.skip_zero_or_more_newlines fuel
  mtllibs_loop fuel fuel []

/-- `Parser::parse_objset` (obj.rs:1690-1698). -/
def parse_objset (cfg : Cfg) (fuel : Nat) : OP σ (ObjectSet F) := do
  let material_libraries ← parse_material_libraries fuel
  let objects ← parse_objects cfg fuel
  return { material_libraries := material_libraries, objects := objects }

end

/-- `obj::Parser::new` (obj.rs:699-705). -/
def Parser.new (input : Bytes) : PState PeekableLexer :=
  { line_number := 1, lexer := PeekableLexer.new (Lexer.new input) }

/-- `obj::parse` (obj.rs:111-113). -/
def parse {F : Type} [FloatSem F] (cfg : Cfg) (input : Bytes) : Out ErrorKind (ObjectSet F) :=
  (parse_objset cfg (input.length + 1) (Parser.new input)).1

end Verif.Obj
