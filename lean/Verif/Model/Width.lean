import Verif.Model.Checked
import Verif.Model.Mtl

/-!
# The parsers on a target of any pointer width

`isize` and `usize` have the width of a pointer: 64 bits on most targets, 32 bits on
`i686`, `wasm32` and others. `Model/Obj.lean` and `Model/Mtl.lean` fix 64 bits. Here are the
functions of the two parsers that depend on the width, directly or through a function they
call, with the number of bits as a parameter. They are otherwise the functions of
`Model/Checked.lean`, in which every counter has machine arithmetic, and of `Model/Mtl.lean`.
The casts `usize as isize` of `calculate_index` are written out here.
-/

namespace Verif

/-- `isize::MIN` on a target with pointers of `w` bits. -/
def isizeMinAt (w : Nat) : Int := -(2 ^ (w - 1))
/-- `isize::MAX` on a target with pointers of `w` bits. -/
def isizeMaxAt (w : Nat) : Int := 2 ^ (w - 1) - 1
/-- `usize::MAX` on a target with pointers of `w` bits. -/
def usizeMaxAt (w : Nat) : Nat := 2 ^ w - 1

/-- Two's complement wrap-around of `isize`. -/
def wrapIsizeAt (w : Nat) (x : Int) : Int := (x + 2 ^ (w - 1)) % 2 ^ w - 2 ^ (w - 1)

/-- The sign of an integer (whether it is `-`) and what follows it. -/
def splitSign (t : Bytes) : Bool × Bytes :=
  match t with
  | 43 :: r => (false, r)
  | 45 :: r => (true, r)
  | _ => (false, t)

/-- `str::parse::<isize>()` (Rust std), see `parseIsize`. -/
def parseIsizeAt (w : Nat) (t : Bytes) : Option Int :=
  match parseDigits (splitSign t).2 with
  | none => none
  | some n =>
    let v : Int := if (splitSign t).1 then -(n : Int) else (n : Int)
    if isizeMinAt w ≤ v ∧ v ≤ isizeMaxAt w then some v else none

/-- `str::parse::<usize>()` (Rust std), see `parseUsize`. -/
def parseUsizeAt (w : Nat) (t : Bytes) : Option Nat :=
  let ds : Bytes := match t with
    | 43 :: r => r
    | _ => t
  match parseDigits ds with
  | none => none
  | some n => if n ≤ usizeMaxAt w then some n else none

end Verif

namespace Verif.Obj.Width

open Verif Verif.Obj Verif.Obj.Checked

/-- The build profile and the number of bits of a pointer. -/
structure Target extends Cfg where
  bits : Nat

/-- The largest value of a counter is `usize::MAX`. -/
def Target.limits (tgt : Target) : Limits := ⟨tgt.toCfg, usizeMaxAt tgt.bits⟩

section
variable {σ : Type} [TokStream σ]

/-- `Parser::parse_isize` (obj.rs:778-788). -/
def parse_isize (tgt : Target) : OP σ Int := do
  let st ← next_string
  match parseIsizeAt tgt.bits st with
  | some val => return val
  | none => P.error .ExpectedInteger (expectedInteger st)

omit [TokStream σ] in
/-- `Parser::calculate_index` (obj.rs:880-901). -/
def calculate_index (tgt : Target) (value_range : Nat × Nat) (parsed_value : Int) : OP σ Nat := do
  let min_value := value_range.1
  let max_value := value_range.2
  let min_isize := wrapIsizeAt tgt.bits min_value
  let max_isize := wrapIsizeAt tgt.bits max_value
  let actual_value : Int ←
    (if parsed_value ≤ 0 then
      let exact := max_isize - parsed_value
      if isizeMinAt tgt.bits ≤ exact ∧ exact ≤ isizeMaxAt tgt.bits then pure exact
      else if tgt.overflow_checks then P.panic .indexSubOverflow
      else pure (wrapIsizeAt tgt.bits exact)
    else pure (parsed_value - 1) : OP σ Int)
  if actual_value ≥ min_isize ∧ actual_value < max_isize then
    if tgt.debug_assertions ∧ ¬ (actual_value ≥ 0) then P.panic .indexNegative
    else return (actual_value - min_isize).toNat
  else
    P.error .VTNIndexOutOfRange
      (b!"Expected index in range [" ++ showNat min_value ++ b!", " ++ showNat max_value ++
        b!"), but got " ++ showInt actual_value ++ b!".")

omit [TokStream σ] in
/-- The closure `process_split` of `parse_vtn_index` (obj.rs:911-924). -/
def process_split (tgt : Target) (split : Bytes) (value_range : Nat × Nat) : OP σ (Option Nat) :=
  if split ≠ [] then do
    let parsed_value ← (match parseIsizeAt tgt.bits split with
      | some v => pure v
      | none => P.error .ExpectedInteger (expectedInteger split) : OP σ Int)
    let index ← calculate_index tgt value_range parsed_value
    return some index
  else return none

omit [TokStream σ] in
/-- `splits_iter.next().and_then(|s| process_split(s, range).transpose()).transpose()`
(obj.rs:927-938). -/
def process_next_split (tgt : Target) (piece : Option Bytes) (value_range : Nat × Nat) :
    OP σ (Option Nat) :=
  match piece with
  | some s => process_split tgt s value_range
  | none => return none

/-- `Parser::parse_vtn_index` (obj.rs:903-962). -/
def parse_vtn_index (tgt : Target) (r : Ranges) : OP σ VTNIndex := do
  let st ← next_string
  let splits_iter := splitByte 47 st
  let split1 ← process_next_split tgt splits_iter[0]? r.vertex
  let split2 ← process_next_split tgt splits_iter[1]? r.texture
  let split3 ← process_next_split tgt splits_iter[2]? r.normal
  if split1.isNone ∨ splits_iter[3]?.isSome then
    P.error .ExpectedVTNIndex (expectedVTN st)
  else
    match split1, split2, split3 with
    | some v, none, none => return .V v
    | some v, none, some vn => return .VN v vn
    | some v, some vt, none => return .VT v vt
    | some v, some vt, some vn => return .VTN v vt vn
    | _, _, _ => P.error .ExpectedVTNIndex (expectedVTN st)

/-- `Parser::parse_vtn_indices` (obj.rs:964-983), with its count. -/
def parse_vtn_indices (tgt : Target) (r : Ranges) : Nat → List VTNIndex → Nat → OP σ (List VTNIndex × Nat)
  | 0, _, _ => P.outOfFuel
  | fuel + 1, vtn_indices, indices_parsed => do
    match ← P.attempt (parse_vtn_index tgt r) with
    | .ok vtn_index => do
      let n ← uadd tgt.limits indices_parsed 1
      parse_vtn_indices tgt r fuel (vtn_indices ++ [vtn_index]) n
    | .error _ => return (vtn_indices, indices_parsed)

/-- The loop of `Parser::parse_point` (obj.rs:1000-1017). -/
def parse_point_loop (tgt : Target) (vertex_index_range : Nat × Nat) :
    Nat → List Element → Nat → OP σ (List Element × Nat)
  | 0, _, _ => P.outOfFuel
  | fuel + 1, elements, elements_parsed => do
    match ← P.next with
    | some st =>
      if st ≠ nl then
        match parseIsizeAt tgt.bits st with
        | some val => do
          let v_index ← calculate_index tgt vertex_index_range val
          let n ← uadd tgt.limits elements_parsed 1
          parse_point_loop tgt vertex_index_range fuel (elements ++ [Element.Point (.V v_index)]) n
        | none => P.error .ExpectedInteger (expectedInteger st)
      else return (elements, elements_parsed)
    | none => return (elements, elements_parsed)

/-- `Parser::parse_point` (obj.rs:985-1020). -/
def parse_point (tgt : Target) (fuel : Nat) (elements : List Element) (vertex_index_range : Nat × Nat) :
    OP σ (List Element × Nat) := do
  expect_tag b!"p"
  let parsed_value ← parse_isize tgt
  let v_index ← calculate_index tgt vertex_index_range parsed_value
  parse_point_loop tgt vertex_index_range fuel (elements ++ [Element.Point (.V v_index)]) 1

/-- `Parser::parse_line` (obj.rs:1022-1066). -/
def parse_line (tgt : Target) (fuel : Nat) (elements : List Element) (r : Ranges) :
    OP σ (List Element × Nat) := do
  expect_tag b!"l"
  let i0 ← parse_vtn_index tgt r
  let i1 ← parse_vtn_index tgt r
  let (vtn_indices, _) ← parse_vtn_indices tgt r fuel [i0, i1] 0
  if verify_vtn_indices vtn_indices = false then
    P.error .EveryVTNIndexMustHaveTheSameFormForAGivenElement
      b!"Every VTN index for a line must have the same form."
  else
    match lineSegments elements vtn_indices with
    | some res => return res
    | none => P.panic .lineSegments

/-- `Parser::parse_face` (obj.rs:1068-1112). -/
def parse_face (tgt : Target) (fuel : Nat) (elements : List Element) (r : Ranges) :
    OP σ (List Element × Nat) := do
  expect_tag b!"f"
  let (vtn_indices, _) ← parse_vtn_indices tgt r fuel [] 0
  if vtn_indices.length < 3 then
    P.error .EveryFaceElementMustHaveAtLeastThreeVertices
      b!"A face primitive must have at least three vertices."
  else if verify_vtn_indices vtn_indices = false then
    P.error .EveryVTNIndexMustHaveTheSameFormForAGivenElement
      b!"Every VTN index for a face must have the same form."
  else
    match triangulate elements vtn_indices with
    | some res => return res
    | none => P.panic .triangulate

/-- `Parser::parse_elements` (obj.rs:1114-1141). -/
def parse_elements (tgt : Target) (fuel : Nat) (elements : List Element) (r : Ranges) :
    OP σ (List Element × Nat) := do
  let t ← P.peek
  if t = some b!"p" then parse_point tgt fuel elements r.vertex
  else if t = some b!"l" then parse_line tgt fuel elements r
  else if t = some b!"f" then parse_face tgt fuel elements r
  else
      P.error .ElementMustBeAPointLineOrFace
        b!"An element must be a point (`p`), line (`l`), or face (`f`)."

/-- `Parser::parse_smoothing_group` (obj.rs:1160-1189). -/
def parse_smoothing_group (tgt : Target) (smoothing_groups : List SmoothingGroup) :
    OP σ (List SmoothingGroup) := do
  expect_tag b!"s"
  match ← P.next with
  | some name =>
    if name = b!"off" then return smoothing_groups ++ [⟨0⟩]
    else
      match parseUsizeAt tgt.bits name with
      | some number => return smoothing_groups ++ [⟨number⟩]
      | none =>
          P.error .SmoothingGroupNameMustBeOffOrInteger
            (b!"A smoothing group name must either be `off`, which denotes that an object has no smoothing groups, or an integer. The parser got `"
            ++ name ++ b!"` instead.")
  | none =>
      P.error .SmoothingGroupDeclarationHasNoName
        b!"Got a smoothing group declaration without a smoothing group name."

variable {F : Type} [FloatSem F]

/-- The arms `Some("s")` of `parse_object` (obj.rs:1347-1364). -/
def step_s (tgt : Target) (st : ObjState F) : OP σ (ObjState F) := do
  if st.smoothing_groups.isEmpty then
    let sg ← parse_smoothing_group tgt st.smoothing_groups
    return { st with smoothing_groups := sg, smoothing_group_index := 0 }
  else
    let table := st.smoothing_group_entry_table ++
      [((st.min_element_smoothing_group_index, st.max_element_smoothing_group_index),
        st.smoothing_group_index)]
    let sg ← parse_smoothing_group tgt st.smoothing_groups
    let i ← uadd tgt.limits st.smoothing_group_index 1
    return { st with
      smoothing_group_entry_table := table
      smoothing_groups := sg
      smoothing_group_index := i
      min_element_smoothing_group_index := st.max_element_smoothing_group_index }

/-- The arm `Some("p") | Some("l") | Some("f")` of `parse_object` (obj.rs:1404-1430). -/
def step_element (tgt : Target) (fuel : Nat) (st : ObjState F) : OP σ (ObjState F) := do
  let st := fillDefaults st
  let r ← parse_elements tgt fuel st.elements st.ctr.ranges
  let max_group ← uadd tgt.limits st.max_element_group_index r.2
  let max_smoothing ← uadd tgt.limits st.max_element_smoothing_group_index r.2
  let max_material ← uadd tgt.limits st.max_element_material_name_index r.2
  return { st with
    elements := r.1
    max_element_group_index := max_group
    max_element_smoothing_group_index := max_smoothing
    max_element_material_name_index := max_material }

/-- The main loop of `Parser::parse_object` (obj.rs:1329-1463). -/
def object_loop (tgt : Target) (fuel0 : Nat) : Nat → ObjState F → OP σ (ObjState F)
  | 0, _ => P.outOfFuel
  | fuel + 1, st => do
    match ← P.peek with
    | none => return closeTables st
    | some t =>
      if t = b!"g" then do
        let st ← Checked.step_g tgt.limits fuel0 st
        object_loop tgt fuel0 fuel st
      else if t = b!"s" then do
        let st ← step_s tgt st
        object_loop tgt fuel0 fuel st
      else if t = b!"usemtl" then do
        let st ← Checked.step_usemtl tgt.limits st
        object_loop tgt fuel0 fuel st
      else if t = b!"v" then do
        let st ← Checked.step_v tgt.limits st
        object_loop tgt fuel0 fuel st
      else if t = b!"vt" then do
        let st ← Checked.step_vt tgt.limits st
        object_loop tgt fuel0 fuel st
      else if t = b!"vn" then do
        let st ← Checked.step_vn tgt.limits st
        object_loop tgt fuel0 fuel st
      else if t = b!"p" ∨ t = b!"l" ∨ t = b!"f" then do
        let st ← step_element tgt fuel0 st
        object_loop tgt fuel0 fuel st
      else if t = nl then do
        skip_one_or_more_newlines fuel0
        object_loop tgt fuel0 fuel st
      else if t = b!"o" then return closeTables st
      else
          P.error .InvalidObjectStatement
            (b!"Unsupported or invalid object statement `" ++ t ++ b!"`.")

/-- `Parser::parse_object` (obj.rs:1291-1491). -/
def parse_object (tgt : Target) (fuel : Nat) (ctr : Counters) : OP σ (Object F × Counters) := do
  let object_name ← parse_object_name fuel
  let st ← object_loop tgt fuel fuel { ctr := ctr }
  let r ← P.lift (finishObject tgt.toCfg object_name st)
  let v ← uadd tgt.limits st.ctr.min_vertex_index st.vertices.length
  let t ← uadd tgt.limits st.ctr.min_texture_index st.texture_vertices.length
  let n ← uadd tgt.limits st.ctr.min_normal_index st.normal_vertices.length
  return (r.1, { st.ctr with min_vertex_index := v, min_texture_index := t, min_normal_index := n })

/-- The `while` loop of `Parser::parse_objects` (obj.rs:1505-1515). -/
def parse_objects_loop (tgt : Target) (fuel0 : Nat) :
    Nat → Counters → List (Object F) → OP σ (List (Object F))
  | 0, _, _ => P.outOfFuel
  | fuel + 1, ctr, result => do
    match ← P.peek with
    | none => return result
    | some _ => do
      let r ← parse_object tgt fuel0 ctr
      P.skip_zero_or_more_newlines fuel0
      parse_objects_loop tgt fuel0 fuel r.2 (result ++ [r.1])

/-- `Parser::parse_objects` (obj.rs:1493-1518). -/
def parse_objects (tgt : Target) (fuel : Nat) : OP σ (List (Object F)) := do
  P.skip_zero_or_more_newlines fuel
  parse_objects_loop tgt fuel fuel {} []

/-- `Parser::parse_objset` (obj.rs:1690-1698). -/
def parse_objset (tgt : Target) (fuel : Nat) : OP σ (ObjectSet F) := do
  let material_libraries ← Checked.parse_material_libraries tgt.limits fuel
  let objects ← parse_objects tgt fuel
  return { material_libraries := material_libraries, objects := objects }

end

/-- `obj::parse` (obj.rs:111-113). -/
def parse {F : Type} [FloatSem F] (tgt : Target) (input : Bytes) : Out ErrorKind (ObjectSet F) :=
  (parse_objset tgt (input.length + 1) (Parser.new input)).1

end Verif.Obj.Width

namespace Verif.Mtl.Width

open Verif Verif.Mtl

section
variable {σ : Type} [TokStream σ]

/-- `Parser::parse_usize` (mtl.rs:365-375). -/
def parse_usize (w : Nat) : MP σ Nat := do
  let st ← next_string
  match parseUsizeAt w st with
  | some val => return val
  | none => P.error .ExpectedInteger (b!"Expected integer but got " ++ st)

/-- `Parser::parse_illumination_model` (mtl.rs:585-598). -/
def parse_illumination_model (w : Nat) : MP σ IlluminationModel := do
  expect_tag b!"illum"
  let model_number ← parse_usize w
  match model_number with
  | 0 => return .Ambient
  | 1 => return .AmbientDiffuse
  | 2 => return .AmbientDiffuseSpecular
  | n => P.error .UnknownIlluminationModel (b!"Unknown illumination model: " ++ showNat n ++ b!".")

variable {F : Type} [FloatSem F]

/-- The `match` on the peeked token in the loop of `Parser::parse_material`
(mtl.rs:635-706); only the arm `illum` depends on the width. -/
def material_step (w : Nat) (t : Tok) (m : Material F) : MP σ (Material F) := do
  if t = b!"illum" then
    let x ← parse_illumination_model w
    return { m with illumination_model := x }
  else Mtl.material_step t m

/-- The loop of `Parser::parse_material` (mtl.rs:634-708). -/
def material_loop (w : Nat) (fuel0 : Nat) : Nat → Material F → MP σ (Material F)
  | 0, _ => P.outOfFuel
  | fuel + 1, m => do
    match ← P.peek with
    | none => return m
    | some t =>
      if t = b!"newmtl" then return m
      else do
        let m ← material_step w t m
        P.skip_zero_or_more_newlines fuel0
        material_loop w fuel0 fuel m

/-- `Parser::parse_material` (mtl.rs:627-711). -/
def parse_material (w : Nat) (fuel : Nat) : MP σ (Material F) := do
  let name ← parse_newmtl
  P.skip_zero_or_more_newlines fuel
  material_loop w fuel fuel { (Material.new : Material F) with name := name }

/-- The `while` loop of `Parser::parse_mtlset` (mtl.rs:779-782). -/
def mtlset_loop (w : Nat) (fuel0 : Nat) : Nat → List (Material F) → MP σ (List (Material F))
  | 0, _ => P.outOfFuel
  | fuel + 1, materials => do
    let t ← P.peek
    if t = some b!"newmtl" then do
      let material ← parse_material w fuel0
      mtlset_loop w fuel0 fuel (materials ++ [material])
    else return materials

/-- `Parser::parse_mtlset` (mtl.rs:774-792). -/
def parse_mtlset (w : Nat) (fuel : Nat) : MP σ (MaterialSet F) := do
  P.skip_zero_or_more_newlines fuel
  let materials ← mtlset_loop w fuel fuel []
  match ← P.peek with
  | some st => P.error .ExpectedEndOfInput (b!"Expected end of input but got `" ++ st ++ b!"`.")
  | none => return { materials := materials }

end

/-- `mtl::parse` (mtl.rs:70-72). -/
def parse {F : Type} [FloatSem F] (w : Nat) (input : Bytes) : Out ErrorKind (MaterialSet F) :=
  (parse_mtlset w (input.length + 1) (Parser.new input)).1

end Verif.Mtl.Width
