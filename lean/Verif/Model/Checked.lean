import Verif.Model.Obj

/-!
# The OBJ parser with machine arithmetic on its counters

`Model/Obj.lean` keeps counters as natural numbers. Here every `+=` on a `usize`
counter of `obj::Parser` is the machine operation of a 64-bit target: it panics in
builds with overflow checks and wraps around in others. Counts that the callers
ignore (`parse_vtn_indices`, `parse_material_library_line`) are computed here too.
Functions without counters are those of `Model/Obj.lean`. Theorem C40 shows that
the two models never differ.
-/

namespace Verif.Obj.Checked

open Verif Verif.Obj

/-- The build profile and the largest value of a counter: `usize::MAX` in the code,
smaller in order to state tighter bounds. -/
structure Limits extends Cfg where
  limit : Nat := usizeMax

instance : Coe Limits Cfg := ⟨Limits.toCfg⟩

section
variable {σ : Type} [TokStream σ]

omit [TokStream σ] in
/-- `a + b` on `usize`, or on a smaller type with the given largest value. -/
def uadd (cfg : Limits) (a b : Nat) : OP σ Nat :=
  if a + b ≤ cfg.limit then pure (a + b)
  else if cfg.overflow_checks then P.panic .addOverflow
  else pure ((a + b) % (cfg.limit + 1))

/-- `Parser::parse_vtn_indices` (obj.rs:964-983), with its count. -/
def parse_vtn_indices (cfg : Limits) (r : Ranges) : Nat → List VTNIndex → Nat → OP σ (List VTNIndex × Nat)
  | 0, _, _ => P.outOfFuel
  | fuel + 1, vtn_indices, indices_parsed => do
    match ← P.attempt (parse_vtn_index cfg r) with
    | .ok vtn_index => do
      let n ← uadd cfg indices_parsed 1
      parse_vtn_indices cfg r fuel (vtn_indices ++ [vtn_index]) n
    | .error _ => return (vtn_indices, indices_parsed)

/-- The loop of `Parser::parse_point` (obj.rs:1000-1017). -/
def parse_point_loop (cfg : Limits) (vertex_index_range : Nat × Nat) :
    Nat → List Element → Nat → OP σ (List Element × Nat)
  | 0, _, _ => P.outOfFuel
  | fuel + 1, elements, elements_parsed => do
    match ← P.next with
    | some st =>
      if st ≠ nl then
        match parseIsize st with
        | some val => do
          let v_index ← calculate_index cfg vertex_index_range val
          let n ← uadd cfg elements_parsed 1
          parse_point_loop cfg vertex_index_range fuel (elements ++ [Element.Point (.V v_index)]) n
        | none => P.error .ExpectedInteger (expectedInteger st)
      else return (elements, elements_parsed)
    | none => return (elements, elements_parsed)

/-- `Parser::parse_point` (obj.rs:985-1020). -/
def parse_point (cfg : Limits) (fuel : Nat) (elements : List Element) (vertex_index_range : Nat × Nat) :
    OP σ (List Element × Nat) := do
  expect_tag b!"p"
  let parsed_value ← parse_isize
  let v_index ← calculate_index cfg vertex_index_range parsed_value
  parse_point_loop cfg vertex_index_range fuel (elements ++ [Element.Point (.V v_index)]) 1

/-- `Parser::parse_line` (obj.rs:1022-1066). -/
def parse_line (cfg : Limits) (fuel : Nat) (elements : List Element) (r : Ranges) :
    OP σ (List Element × Nat) := do
  expect_tag b!"l"
  let i0 ← parse_vtn_index cfg r
  let i1 ← parse_vtn_index cfg r
  let (vtn_indices, _) ← parse_vtn_indices cfg r fuel [i0, i1] 0
  if verify_vtn_indices vtn_indices = false then
    P.error .EveryVTNIndexMustHaveTheSameFormForAGivenElement
      b!"Every VTN index for a line must have the same form."
  else
    match lineSegments elements vtn_indices with
    | some res => return res
    | none => P.panic .lineSegments

/-- `Parser::parse_face` (obj.rs:1068-1112). -/
def parse_face (cfg : Limits) (fuel : Nat) (elements : List Element) (r : Ranges) :
    OP σ (List Element × Nat) := do
  expect_tag b!"f"
  let (vtn_indices, _) ← parse_vtn_indices cfg r fuel [] 0
  if vtn_indices.length < 3 then
    P.error .EveryFaceElementMustHaveAtLeastThreeVertices
      b!"A face primitive must have at least three vertices."
  else if verify_vtn_indices vtn_indices = false then
    P.error .EveryVTNIndexMustHaveTheSameFormForAGivenElement
      b!"Every VTN index for a face must have the same form."
  else
    match triangulate elements vtn_indices with
    | some res => return res
    | none => P.panic .triangulate

/-- `Parser::parse_elements` (obj.rs:1114-1141). -/
def parse_elements (cfg : Limits) (fuel : Nat) (elements : List Element) (r : Ranges) :
    OP σ (List Element × Nat) := do
  let t ← P.peek
  if t = some b!"p" then parse_point cfg fuel elements r.vertex
  else if t = some b!"l" then parse_line cfg fuel elements r
  else if t = some b!"f" then parse_face cfg fuel elements r
  else
      P.error .ElementMustBeAPointLineOrFace
        b!"An element must be a point (`p`), line (`l`), or face (`f`)."

/-- The loop of `Parser::parse_groups` (obj.rs:1147-1155). -/
def parse_groups_loop (cfg : Limits) : Nat → List Group → Nat → OP σ (List Group × Nat)
  | 0, _, _ => P.outOfFuel
  | fuel + 1, groups, groups_parsed => do
    match ← P.next with
    | some name =>
      if name ≠ nl then do
        let n ← uadd cfg groups_parsed 1
        parse_groups_loop cfg fuel (groups ++ [⟨name⟩]) n
      else return (groups, groups_parsed)
    | none => return (groups, groups_parsed)

/-- `Parser::parse_groups` (obj.rs:1143-1158). -/
def parse_groups (cfg : Limits) (fuel : Nat) (groups : List Group) : OP σ (List Group × Nat) := do
  expect_tag b!"g"
  parse_groups_loop cfg fuel groups 0

variable {F : Type} [FloatSem F]

/-- The arms `Some("g")` of `parse_object` (obj.rs:1331-1346). -/
def step_g (cfg : Limits) (fuel : Nat) (st : ObjState F) : OP σ (ObjState F) := do
  if st.groups.isEmpty then
    let r ← parse_groups cfg fuel st.groups
    let max ← uadd cfg st.max_group_index r.2
    return { st with groups := r.1, max_group_index := max }
  else
    let table := st.group_entry_table ++
      [((st.min_element_group_index, st.max_element_group_index),
        (st.min_group_index, st.max_group_index))]
    let r ← parse_groups cfg fuel st.groups
    let max ← uadd cfg st.max_group_index r.2
    return { st with
      group_entry_table := table
      groups := r.1
      min_group_index := st.max_group_index
      max_group_index := max
      min_element_group_index := st.max_element_group_index }

/-- The arms `Some("s")` of `parse_object` (obj.rs:1347-1364). -/
def step_s (cfg : Limits) (st : ObjState F) : OP σ (ObjState F) := do
  if st.smoothing_groups.isEmpty then
    let sg ← parse_smoothing_group st.smoothing_groups
    return { st with smoothing_groups := sg, smoothing_group_index := 0 }
  else
    let table := st.smoothing_group_entry_table ++
      [((st.min_element_smoothing_group_index, st.max_element_smoothing_group_index),
        st.smoothing_group_index)]
    let sg ← parse_smoothing_group st.smoothing_groups
    let i ← uadd cfg st.smoothing_group_index 1
    return { st with
      smoothing_group_entry_table := table
      smoothing_groups := sg
      smoothing_group_index := i
      min_element_smoothing_group_index := st.max_element_smoothing_group_index }

/-- The arm `Some("usemtl")` of `parse_object` (obj.rs:1365-1388). -/
def step_usemtl (cfg : Limits) (st : ObjState F) : OP σ (ObjState F) := do
  let st1 : ObjState F ←
    (if st.min_element_material_name_index = st.max_element_material_name_index then do
      if st.material_names.isEmpty then
        let m ← parse_material_name st.material_names
        return { st with material_names := m }
      else
        let m ← parse_material_name st.material_names
        let i ← uadd cfg st.material_name_index 1
        return { st with material_names := m, material_name_index := i }
    else do
      let table := st.material_name_entry_table ++
        [((st.min_element_material_name_index, st.max_element_material_name_index),
          st.material_name_index)]
      if st.material_names.isEmpty then
        let m ← parse_material_name st.material_names
        return { st with material_name_entry_table := table, material_names := m }
      else
        let m ← parse_material_name st.material_names
        let i ← uadd cfg st.material_name_index 1
        return { st with
          material_name_entry_table := table
          material_names := m
          material_name_index := i } : OP σ (ObjState F))
  return { st1 with min_element_material_name_index := st1.max_element_material_name_index }

/-- The arms `Some("v")`, `Some("vt")`, `Some("vn")` of `parse_object`
(obj.rs:1389-1403). -/
def step_v (cfg : Limits) (st : ObjState F) : OP σ (ObjState F) := do
  let vertex ← parse_vertex
  let max ← uadd cfg st.ctr.max_vertex_index 1
  return { st with
    vertices := st.vertices ++ [vertex]
    ctr := { st.ctr with max_vertex_index := max } }

@[inherit_doc step_v]
def step_vt (cfg : Limits) (st : ObjState F) : OP σ (ObjState F) := do
  let texture_vertex ← parse_texture_vertex
  let max ← uadd cfg st.ctr.max_texture_index 1
  return { st with
    texture_vertices := st.texture_vertices ++ [texture_vertex]
    ctr := { st.ctr with max_texture_index := max } }

@[inherit_doc step_v]
def step_vn (cfg : Limits) (st : ObjState F) : OP σ (ObjState F) := do
  let normal_vertex ← parse_normal_vertex
  let max ← uadd cfg st.ctr.max_normal_index 1
  return { st with
    normal_vertices := st.normal_vertices ++ [normal_vertex]
    ctr := { st.ctr with max_normal_index := max } }

/-- The arm `Some("p") | Some("l") | Some("f")` of `parse_object` (obj.rs:1404-1430). -/
def step_element (cfg : Limits) (fuel : Nat) (st : ObjState F) : OP σ (ObjState F) := do
  let st := fillDefaults st
  let r ← parse_elements cfg fuel st.elements st.ctr.ranges
  let max_group ← uadd cfg st.max_element_group_index r.2
  let max_smoothing ← uadd cfg st.max_element_smoothing_group_index r.2
  let max_material ← uadd cfg st.max_element_material_name_index r.2
  return { st with
    elements := r.1
    max_element_group_index := max_group
    max_element_smoothing_group_index := max_smoothing
    max_element_material_name_index := max_material }

/-- The main loop of `Parser::parse_object` (obj.rs:1329-1463). -/
def object_loop (cfg : Limits) (fuel0 : Nat) : Nat → ObjState F → OP σ (ObjState F)
  | 0, _ => P.outOfFuel
  | fuel + 1, st => do
    match ← P.peek with
    | none => return closeTables st
    | some t =>
      if t = b!"g" then do
        let st ← step_g cfg fuel0 st
        object_loop cfg fuel0 fuel st
      else if t = b!"s" then do
        let st ← step_s cfg st
        object_loop cfg fuel0 fuel st
      else if t = b!"usemtl" then do
        let st ← step_usemtl cfg st
        object_loop cfg fuel0 fuel st
      else if t = b!"v" then do
        let st ← step_v cfg st
        object_loop cfg fuel0 fuel st
      else if t = b!"vt" then do
        let st ← step_vt cfg st
        object_loop cfg fuel0 fuel st
      else if t = b!"vn" then do
        let st ← step_vn cfg st
        object_loop cfg fuel0 fuel st
      else if t = b!"p" ∨ t = b!"l" ∨ t = b!"f" then do
        let st ← step_element cfg fuel0 st
        object_loop cfg fuel0 fuel st
      else if t = nl then do
        skip_one_or_more_newlines fuel0
        object_loop cfg fuel0 fuel st
      else if t = b!"o" then return closeTables st
      else
          P.error .InvalidObjectStatement
            (b!"Unsupported or invalid object statement `" ++ t ++ b!"`.")

/-- `Parser::parse_object` (obj.rs:1291-1491); the three additions at the end are
obj.rs:1476-1478. -/
def parse_object (cfg : Limits) (fuel : Nat) (ctr : Counters) : OP σ (Object F × Counters) := do
  let object_name ← parse_object_name fuel
  let st ← object_loop cfg fuel fuel { ctr := ctr }
  let r ← P.lift (finishObject cfg object_name st)
  let v ← uadd cfg st.ctr.min_vertex_index st.vertices.length
  let t ← uadd cfg st.ctr.min_texture_index st.texture_vertices.length
  let n ← uadd cfg st.ctr.min_normal_index st.normal_vertices.length
  return (r.1, { st.ctr with min_vertex_index := v, min_texture_index := t, min_normal_index := n })

/-- The `while` loop of `Parser::parse_objects` (obj.rs:1505-1515). -/
def parse_objects_loop (cfg : Limits) (fuel0 : Nat) :
    Nat → Counters → List (Object F) → OP σ (List (Object F))
  | 0, _, _ => P.outOfFuel
  | fuel + 1, ctr, result => do
    match ← P.peek with
    | none => return result
    | some _ => do
      let r ← parse_object cfg fuel0 ctr
      P.skip_zero_or_more_newlines fuel0
      parse_objects_loop cfg fuel0 fuel r.2 (result ++ [r.1])

/-- `Parser::parse_objects` (obj.rs:1493-1518). -/
def parse_objects (cfg : Limits) (fuel : Nat) : OP σ (List (Object F)) := do
  P.skip_zero_or_more_newlines fuel
  parse_objects_loop cfg fuel fuel {} []

/-- The loop of `Parser::parse_material_library_line` (obj.rs:1527-1535). -/
def mtllib_line_loop (cfg : Limits) : Nat → List Bytes → Nat → OP σ (List Bytes × Nat)
  | 0, _, _ => P.outOfFuel
  | fuel + 1, material_libraries, number_of_libraries_found => do
    match ← P.next with
    | some st =>
      if st ≠ nl then do
        let n ← uadd cfg number_of_libraries_found 1
        mtllib_line_loop cfg fuel (material_libraries ++ [st]) n
      else return (material_libraries, number_of_libraries_found)
    | none => return (material_libraries, number_of_libraries_found)

/-- `Parser::parse_material_library_line` (obj.rs:1520-1538). -/
def parse_material_library_line (cfg : Limits) (fuel : Nat) (material_libraries : List Bytes) :
    OP σ (List Bytes × Nat) := do
  expect_tag b!"mtllib"
  mtllib_line_loop cfg fuel material_libraries 0

/-- The `while` loop of `Parser::parse_material_libraries` (obj.rs:1544-1547). -/
def mtllibs_loop (cfg : Limits) (fuel0 : Nat) : Nat → List Bytes → OP σ (List Bytes)
  | 0, _ => P.outOfFuel
  | fuel + 1, material_libraries => do
    let t ← P.peek
    if t = some b!"mtllib" then do
      let (m, _) ← parse_material_library_line cfg fuel0 material_libraries
      P.skip_zero_or_more_newlines fuel0
      mtllibs_loop cfg fuel0 fuel m
    else return material_libraries

/-- `Parser::parse_material_libraries` (obj.rs:1540-1550). -/
def parse_material_libraries (cfg : Limits) (fuel : Nat) : OP σ (List Bytes) := do
  P.skip_zero_or_more_newlines fuel
  mtllibs_loop cfg fuel fuel []

/-- `Parser::parse_objset` (obj.rs:1690-1698). -/
def parse_objset (cfg : Limits) (fuel : Nat) : OP σ (ObjectSet F) := do
  let material_libraries ← parse_material_libraries cfg fuel
  let objects ← parse_objects cfg fuel
  return { material_libraries := material_libraries, objects := objects }

end

/-- `obj::parse` (obj.rs:111-113). -/
def parse {F : Type} [FloatSem F] (cfg : Limits) (input : Bytes) : Out ErrorKind (ObjectSet F) :=
  (parse_objset cfg (input.length + 1) (Parser.new input)).1

end Verif.Obj.Checked
