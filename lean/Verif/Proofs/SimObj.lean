import Verif.Model.Obj
import Verif.Proofs.Sim

/-!
# Simulation lemmas for every method of the OBJ parser
-/

namespace Verif.Obj

open Verif

theorem finishObject_ne_err {F : Type} (cfg : Cfg) (n : Tok) (st : ObjState F) (e : ParseError ErrorKind) :
    finishObject cfg n st ≠ .err e := by
  unfold finishObject
  have h1 : ∀ e, parse_shape_entries cfg st.elements st.group_entry_table
      st.smoothing_group_entry_table ≠ .err e := by
    intro e
    simp only [parse_shape_entries]
    repeat' (first | split | simp)
  have h2 : ∀ e, parse_geometries st.material_name_entry_table st.material_names ≠ .err e := by
    intro e
    simp only [parse_geometries]
    repeat' (first | split | simp)
  intro h
  split at h
  · split at h
    · simp at h
    · rename_i h'; exact h2 _ h'
    · simp at h
    · simp at h
  · rename_i h'; exact h1 _ h'
  · simp at h
  · simp at h

section
variable {σ₁ σ₂ : Type} [TokStream σ₁] [TokStream σ₂] {d : Nat} {R : σ₁ → σ₂ → Prop}
  (hR : Bisim R)

omit [TokStream σ₁] [TokStream σ₂] in
theorem sim_calculate_index (cfg : Cfg) (r : Nat × Nat) (v : Int) :
    Sim d R (calculate_index cfg r v : OP σ₁ _) (calculate_index cfg r v : OP σ₂ _) := by
  unfold calculate_index; sim
macro_rules | `(tactic| sim_step) => `(tactic| exact sim_calculate_index _ _ _)

omit [TokStream σ₁] [TokStream σ₂] in
theorem sim_process_split (cfg : Cfg) (b : Bytes) (r : Nat × Nat) :
    Sim d R (process_split cfg b r : OP σ₁ _) (process_split cfg b r : OP σ₂ _) := by
  unfold process_split; sim
macro_rules | `(tactic| sim_step) => `(tactic| exact sim_process_split _ _ _)

omit [TokStream σ₁] [TokStream σ₂] in
theorem sim_process_next_split (cfg : Cfg) (b : Option Bytes) (r : Nat × Nat) :
    Sim d R (process_next_split cfg b r : OP σ₁ _) (process_next_split cfg b r : OP σ₂ _) := by
  unfold process_next_split; sim
macro_rules | `(tactic| sim_step) => `(tactic| exact sim_process_next_split _ _ _)

include hR

theorem sim_next_string : Sim d R (next_string : OP σ₁ _) (next_string : OP σ₂ _) := by
  unfold next_string; sim
macro_rules | `(tactic| sim_step) => `(tactic| exact sim_next_string ‹_›)

theorem sim_expect_tag (t : Tok) : Sim d R (expect_tag t : OP σ₁ _) (expect_tag t : OP σ₂ _) := by
  unfold expect_tag; sim
macro_rules | `(tactic| sim_step) => `(tactic| exact sim_expect_tag ‹_› _)

theorem sim_parse_isize : Sim d R (parse_isize : OP σ₁ _) (parse_isize : OP σ₂ _) := by
  unfold parse_isize; sim
macro_rules | `(tactic| sim_step) => `(tactic| exact sim_parse_isize ‹_›)

theorem sim_skip_one {n m : Nat} (h : n ≤ m) :
    Sim d R (skip_one_or_more_newlines n : OP σ₁ _) (skip_one_or_more_newlines m : OP σ₂ _) := by
  unfold skip_one_or_more_newlines; sim
macro_rules | `(tactic| sim_step) => `(tactic| exact sim_skip_one ‹_› ‹_›)

theorem sim_parse_object_name {n m : Nat} (h : n ≤ m) :
    Sim d R (parse_object_name n : OP σ₁ _) (parse_object_name m : OP σ₂ _) := by
  unfold parse_object_name
  sim
macro_rules | `(tactic| sim_step) => `(tactic| exact sim_parse_object_name ‹_› ‹_›)

theorem sim_parse_vtn_index (cfg : Cfg) (r : Ranges) :
    Sim d R (parse_vtn_index cfg r : OP σ₁ _) (parse_vtn_index cfg r : OP σ₂ _) := by
  unfold parse_vtn_index; sim
macro_rules | `(tactic| sim_step) => `(tactic| exact sim_parse_vtn_index ‹_› _ _)

theorem sim_parse_vtn_indices (cfg : Cfg) (r : Ranges) {n m : Nat} (h : n ≤ m) (l : List VTNIndex) :
    Sim d R (parse_vtn_indices cfg r n l : OP σ₁ _) (parse_vtn_indices cfg r m l : OP σ₂ _) := by
  induction n generalizing m l with
  | zero => exact Sim.outOfFuel _
  | succ n ih =>
    obtain ⟨m, rfl⟩ : ∃ k, m = k + 1 := ⟨m - 1, by omega⟩
    have ih := fun l => ih (m := m) (by omega) l
    unfold parse_vtn_indices
    sim
    exact ih _
macro_rules | `(tactic| sim_step) => `(tactic| exact sim_parse_vtn_indices ‹_› _ _ ‹_› _)

theorem sim_parse_point_loop (cfg : Cfg) (r : Nat × Nat) {n m : Nat} (h : n ≤ m) (l : List Element)
    (k : Nat) :
    Sim d R (parse_point_loop cfg r n l k : OP σ₁ _) (parse_point_loop cfg r m l k : OP σ₂ _) := by
  induction n generalizing m l k with
  | zero => exact Sim.outOfFuel _
  | succ n ih =>
    obtain ⟨m, rfl⟩ : ∃ k, m = k + 1 := ⟨m - 1, by omega⟩
    have ih := fun l k => ih (m := m) (by omega) l k
    unfold parse_point_loop
    sim
    exact ih _ _
macro_rules | `(tactic| sim_step) => `(tactic| exact sim_parse_point_loop ‹_› _ _ ‹_› _ _)

theorem sim_parse_point (cfg : Cfg) {n m : Nat} (h : n ≤ m) (l : List Element) (r : Nat × Nat) :
    Sim d R (parse_point cfg n l r : OP σ₁ _) (parse_point cfg m l r : OP σ₂ _) := by
  unfold parse_point; sim
macro_rules | `(tactic| sim_step) => `(tactic| exact sim_parse_point ‹_› _ ‹_› _ _)

theorem sim_parse_line (cfg : Cfg) {n m : Nat} (h : n ≤ m) (l : List Element) (r : Ranges) :
    Sim d R (parse_line cfg n l r : OP σ₁ _) (parse_line cfg m l r : OP σ₂ _) := by
  unfold parse_line; sim
macro_rules | `(tactic| sim_step) => `(tactic| exact sim_parse_line ‹_› _ ‹_› _ _)

theorem sim_parse_face (cfg : Cfg) {n m : Nat} (h : n ≤ m) (l : List Element) (r : Ranges) :
    Sim d R (parse_face cfg n l r : OP σ₁ _) (parse_face cfg m l r : OP σ₂ _) := by
  unfold parse_face; sim
macro_rules | `(tactic| sim_step) => `(tactic| exact sim_parse_face ‹_› _ ‹_› _ _)

theorem sim_parse_elements (cfg : Cfg) {n m : Nat} (h : n ≤ m) (l : List Element) (r : Ranges) :
    Sim d R (parse_elements cfg n l r : OP σ₁ _) (parse_elements cfg m l r : OP σ₂ _) := by
  unfold parse_elements; sim
macro_rules | `(tactic| sim_step) => `(tactic| exact sim_parse_elements ‹_› _ ‹_› _ _)

theorem sim_parse_groups_loop {n m : Nat} (h : n ≤ m) (l : List Group) (k : Nat) :
    Sim d R (parse_groups_loop n l k : OP σ₁ _) (parse_groups_loop m l k : OP σ₂ _) := by
  induction n generalizing m l k with
  | zero => exact Sim.outOfFuel _
  | succ n ih =>
    obtain ⟨m, rfl⟩ : ∃ k, m = k + 1 := ⟨m - 1, by omega⟩
    have ih := fun l k => ih (m := m) (by omega) l k
    unfold parse_groups_loop
    sim
    exact ih _ _
macro_rules | `(tactic| sim_step) => `(tactic| exact sim_parse_groups_loop ‹_› ‹_› _ _)

theorem sim_parse_groups {n m : Nat} (h : n ≤ m) (l : List Group) :
    Sim d R (parse_groups n l : OP σ₁ _) (parse_groups m l : OP σ₂ _) := by
  unfold parse_groups; sim
macro_rules | `(tactic| sim_step) => `(tactic| exact sim_parse_groups ‹_› ‹_› _)

theorem sim_parse_smoothing_group (l : List SmoothingGroup) :
    Sim d R (parse_smoothing_group l : OP σ₁ _) (parse_smoothing_group l : OP σ₂ _) := by
  unfold parse_smoothing_group; sim
macro_rules | `(tactic| sim_step) => `(tactic| exact sim_parse_smoothing_group ‹_› _)

theorem sim_parse_material_name (l : List (Option Bytes)) :
    Sim d R (parse_material_name l : OP σ₁ _) (parse_material_name l : OP σ₂ _) := by
  unfold parse_material_name; sim
macro_rules | `(tactic| sim_step) => `(tactic| exact sim_parse_material_name ‹_› _)

theorem sim_mtllib_line_loop {n m : Nat} (h : n ≤ m) (l : List Bytes) :
    Sim d R (mtllib_line_loop n l : OP σ₁ _) (mtllib_line_loop m l : OP σ₂ _) := by
  induction n generalizing m l with
  | zero => exact Sim.outOfFuel _
  | succ n ih =>
    obtain ⟨m, rfl⟩ : ∃ k, m = k + 1 := ⟨m - 1, by omega⟩
    have ih := fun l => ih (m := m) (by omega) l
    unfold mtllib_line_loop
    sim
    exact ih _
macro_rules | `(tactic| sim_step) => `(tactic| exact sim_mtllib_line_loop ‹_› ‹_› _)

theorem sim_parse_material_library_line {n m : Nat} (h : n ≤ m) (l : List Bytes) :
    Sim d R (parse_material_library_line n l : OP σ₁ _)
      (parse_material_library_line m l : OP σ₂ _) := by
  unfold parse_material_library_line; sim
macro_rules | `(tactic| sim_step) => `(tactic| exact sim_parse_material_library_line ‹_› ‹_› _)

theorem sim_mtllibs_loop {f0 g0 : Nat} (h0 : f0 ≤ g0) {n m : Nat} (h : n ≤ m) (l : List Bytes) :
    Sim d R (mtllibs_loop f0 n l : OP σ₁ _) (mtllibs_loop g0 m l : OP σ₂ _) := by
  induction n generalizing m l with
  | zero => exact Sim.outOfFuel _
  | succ n ih =>
    obtain ⟨m, rfl⟩ : ∃ k, m = k + 1 := ⟨m - 1, by omega⟩
    have ih := fun l => ih (m := m) (by omega) l
    unfold mtllibs_loop
    sim
    exact ih _
macro_rules | `(tactic| sim_step) => `(tactic| exact sim_mtllibs_loop ‹_› ‹_› ‹_› _)

theorem sim_parse_material_libraries {n m : Nat} (h : n ≤ m) :
    Sim d R (parse_material_libraries n : OP σ₁ _) (parse_material_libraries m : OP σ₂ _) := by
  unfold parse_material_libraries; sim
macro_rules | `(tactic| sim_step) => `(tactic| exact sim_parse_material_libraries ‹_› ‹_›)

variable {F : Type} [FloatSem F]

theorem sim_parse_f64 : Sim d R (parse_f64 : OP σ₁ F) (parse_f64 : OP σ₂ F) := by
  unfold parse_f64; sim
macro_rules | `(tactic| sim_step) => `(tactic| exact sim_parse_f64 ‹_›)

theorem sim_try_once_f64 : Sim d R (try_once_f64 : OP σ₁ (Option F)) (try_once_f64 : OP σ₂ _) := by
  unfold try_once_f64; sim
macro_rules | `(tactic| sim_step) => `(tactic| exact sim_try_once_f64 ‹_›)

theorem sim_parse_vertex : Sim d R (parse_vertex : OP σ₁ (Vertex F)) (parse_vertex : OP σ₂ _) := by
  unfold parse_vertex; sim
macro_rules | `(tactic| sim_step) => `(tactic| exact sim_parse_vertex ‹_›)

theorem sim_parse_texture_vertex :
    Sim d R (parse_texture_vertex : OP σ₁ (TextureVertex F)) (parse_texture_vertex : OP σ₂ _) := by
  unfold parse_texture_vertex; sim
macro_rules | `(tactic| sim_step) => `(tactic| exact sim_parse_texture_vertex ‹_›)

theorem sim_parse_normal_vertex :
    Sim d R (parse_normal_vertex : OP σ₁ (NormalVertex F)) (parse_normal_vertex : OP σ₂ _) := by
  unfold parse_normal_vertex; sim
macro_rules | `(tactic| sim_step) => `(tactic| exact sim_parse_normal_vertex ‹_›)

omit [FloatSem F] in
theorem sim_step_g {n m : Nat} (h : n ≤ m) (st : ObjState F) :
    Sim d R (step_g n st : OP σ₁ _) (step_g m st : OP σ₂ _) := by
  unfold step_g; sim
macro_rules | `(tactic| sim_step) => `(tactic| exact sim_step_g ‹_› ‹_› _)

omit [FloatSem F] in
theorem sim_step_s (st : ObjState F) : Sim d R (step_s st : OP σ₁ _) (step_s st : OP σ₂ _) := by
  unfold step_s; sim
macro_rules | `(tactic| sim_step) => `(tactic| exact sim_step_s ‹_› _)

omit [FloatSem F] in
theorem sim_step_usemtl (st : ObjState F) :
    Sim d R (step_usemtl st : OP σ₁ _) (step_usemtl st : OP σ₂ _) := by
  unfold step_usemtl; sim
macro_rules | `(tactic| sim_step) => `(tactic| exact sim_step_usemtl ‹_› _)

theorem sim_step_v (st : ObjState F) : Sim d R (step_v st : OP σ₁ _) (step_v st : OP σ₂ _) := by
  unfold step_v; sim
macro_rules | `(tactic| sim_step) => `(tactic| exact sim_step_v ‹_› _)

theorem sim_step_vt (st : ObjState F) : Sim d R (step_vt st : OP σ₁ _) (step_vt st : OP σ₂ _) := by
  unfold step_vt; sim
macro_rules | `(tactic| sim_step) => `(tactic| exact sim_step_vt ‹_› _)

theorem sim_step_vn (st : ObjState F) : Sim d R (step_vn st : OP σ₁ _) (step_vn st : OP σ₂ _) := by
  unfold step_vn; sim
macro_rules | `(tactic| sim_step) => `(tactic| exact sim_step_vn ‹_› _)

omit [FloatSem F] in
theorem sim_step_element (cfg : Cfg) {n m : Nat} (h : n ≤ m) (st : ObjState F) :
    Sim d R (step_element cfg n st : OP σ₁ _) (step_element cfg m st : OP σ₂ _) := by
  unfold step_element; sim
macro_rules | `(tactic| sim_step) => `(tactic| exact sim_step_element ‹_› _ ‹_› _)

theorem sim_object_loop (cfg : Cfg) {f0 g0 : Nat} (h0 : f0 ≤ g0) {n m : Nat} (h : n ≤ m)
    (st : ObjState F) :
    Sim d R (object_loop cfg f0 n st : OP σ₁ _) (object_loop cfg g0 m st : OP σ₂ _) := by
  induction n generalizing m st with
  | zero => exact Sim.outOfFuel _
  | succ n ih =>
    obtain ⟨m, rfl⟩ : ∃ k, m = k + 1 := ⟨m - 1, by omega⟩
    have ih := fun l => ih (m := m) (by omega) l
    unfold object_loop
    sim
    all_goals exact ih _
macro_rules | `(tactic| sim_step) => `(tactic| exact sim_object_loop ‹_› _ ‹_› ‹_› _)

theorem sim_parse_object (cfg : Cfg) {n m : Nat} (h : n ≤ m) (c : Counters) :
    Sim d R (parse_object cfg n c : OP σ₁ (Object F × Counters)) (parse_object cfg m c : OP σ₂ _) := by
  unfold parse_object; sim
  exact Sim.lift_ok (finishObject_ne_err _ _ _)
macro_rules | `(tactic| sim_step) => `(tactic| exact sim_parse_object ‹_› _ ‹_› _)

theorem sim_parse_objects_loop (cfg : Cfg) {f0 g0 : Nat} (h0 : f0 ≤ g0) {n m : Nat} (h : n ≤ m)
    (c : Counters) (l : List (Object F)) :
    Sim d R (parse_objects_loop cfg f0 n c l : OP σ₁ _) (parse_objects_loop cfg g0 m c l : OP σ₂ _) := by
  induction n generalizing m c l with
  | zero => exact Sim.outOfFuel _
  | succ n ih =>
    obtain ⟨m, rfl⟩ : ∃ k, m = k + 1 := ⟨m - 1, by omega⟩
    have ih := fun c l => ih (m := m) (by omega) c l
    unfold parse_objects_loop
    sim
    exact ih _ _
macro_rules | `(tactic| sim_step) => `(tactic| exact sim_parse_objects_loop ‹_› _ ‹_› ‹_› _ _)

theorem sim_parse_objects (cfg : Cfg) {n m : Nat} (h : n ≤ m) :
    Sim d R (parse_objects cfg n : OP σ₁ (List (Object F))) (parse_objects cfg m : OP σ₂ _) := by
  unfold parse_objects; sim
macro_rules | `(tactic| sim_step) => `(tactic| exact sim_parse_objects ‹_› _ ‹_›)

theorem sim_parse_objset (cfg : Cfg) {n m : Nat} (h : n ≤ m) :
    Sim d R (parse_objset cfg n : OP σ₁ (ObjectSet F)) (parse_objset cfg m : OP σ₂ _) := by
  unfold parse_objset; sim

end

end Verif.Obj
