import Verif.Proofs.Checked
import Verif.Proofs.Machine
import Verif.Proofs.ObjTop
import Verif.Proofs.MtlFile

/-!
# The checked parser on bytes

Simulation lemmas for the methods with counters, and the equality of the two models.
-/

namespace Verif.Obj.Checked

open Verif Verif.Obj

section
variable {σ₁ σ₂ : Type} [TokStream σ₁] [TokStream σ₂] {d : Nat} {R : σ₁ → σ₂ → Prop}
  (hR : Bisim R)

omit [TokStream σ₁] [TokStream σ₂] in
theorem sim_uadd (cfg : Limits) (a b : Nat) : Sim d R (uadd cfg a b : OP σ₁ _) (uadd cfg a b : OP σ₂ _) := by
  unfold uadd; sim
macro_rules | `(tactic| sim_step) => `(tactic| exact sim_uadd _ _ _)

include hR

theorem sim_parse_vtn_indices (cfg : Limits) (r : Ranges) {n m : Nat} (h : n ≤ m) (l : List VTNIndex) (k : Nat) :
    Sim d R (parse_vtn_indices cfg r n l k : OP σ₁ _) (parse_vtn_indices cfg r m l k : OP σ₂ _) := by
  induction n generalizing m l k with
  | zero => exact Sim.outOfFuel _
  | succ n ih =>
    obtain ⟨m, rfl⟩ : ∃ k, m = k + 1 := ⟨m - 1, by omega⟩
    have ih := fun l k => ih (m := m) (by omega) l k
    unfold parse_vtn_indices
    sim
    all_goals exact ih _ _
macro_rules | `(tactic| sim_step) => `(tactic| exact sim_parse_vtn_indices ‹_› _ _ ‹_› _ _)

theorem sim_parse_point_loop (cfg : Limits) (r : Nat × Nat) {n m : Nat} (h : n ≤ m) (l : List Element) (k : Nat) :
    Sim d R (parse_point_loop cfg r n l k : OP σ₁ _) (parse_point_loop cfg r m l k : OP σ₂ _) := by
  induction n generalizing m l k with
  | zero => exact Sim.outOfFuel _
  | succ n ih =>
    obtain ⟨m, rfl⟩ : ∃ k, m = k + 1 := ⟨m - 1, by omega⟩
    have ih := fun l k => ih (m := m) (by omega) l k
    unfold parse_point_loop
    sim
    all_goals exact ih _ _
macro_rules | `(tactic| sim_step) => `(tactic| exact sim_parse_point_loop ‹_› _ _ ‹_› _ _)

theorem sim_parse_point (cfg : Limits) {n m : Nat} (h : n ≤ m) (l : List Element) (r : Nat × Nat) :
    Sim d R (parse_point cfg n l r : OP σ₁ _) (parse_point cfg m l r : OP σ₂ _) := by
  unfold parse_point; sim
macro_rules | `(tactic| sim_step) => `(tactic| exact sim_parse_point ‹_› _ ‹_› _ _)

theorem sim_parse_line (cfg : Limits) {n m : Nat} (h : n ≤ m) (l : List Element) (r : Ranges) :
    Sim d R (parse_line cfg n l r : OP σ₁ _) (parse_line cfg m l r : OP σ₂ _) := by
  unfold parse_line; sim
macro_rules | `(tactic| sim_step) => `(tactic| exact sim_parse_line ‹_› _ ‹_› _ _)

theorem sim_parse_face (cfg : Limits) {n m : Nat} (h : n ≤ m) (l : List Element) (r : Ranges) :
    Sim d R (parse_face cfg n l r : OP σ₁ _) (parse_face cfg m l r : OP σ₂ _) := by
  unfold parse_face; sim
macro_rules | `(tactic| sim_step) => `(tactic| exact sim_parse_face ‹_› _ ‹_› _ _)

theorem sim_parse_elements (cfg : Limits) {n m : Nat} (h : n ≤ m) (l : List Element) (r : Ranges) :
    Sim d R (parse_elements cfg n l r : OP σ₁ _) (parse_elements cfg m l r : OP σ₂ _) := by
  unfold parse_elements; sim
macro_rules | `(tactic| sim_step) => `(tactic| exact sim_parse_elements ‹_› _ ‹_› _ _)

theorem sim_parse_groups_loop (cfg : Limits) {n m : Nat} (h : n ≤ m) (l : List Group) (k : Nat) :
    Sim d R (parse_groups_loop cfg n l k : OP σ₁ _) (parse_groups_loop cfg m l k : OP σ₂ _) := by
  induction n generalizing m l k with
  | zero => exact Sim.outOfFuel _
  | succ n ih =>
    obtain ⟨m, rfl⟩ : ∃ k, m = k + 1 := ⟨m - 1, by omega⟩
    have ih := fun l k => ih (m := m) (by omega) l k
    unfold parse_groups_loop
    sim
    all_goals exact ih _ _
macro_rules | `(tactic| sim_step) => `(tactic| exact sim_parse_groups_loop ‹_› _ ‹_› _ _)

theorem sim_parse_groups (cfg : Limits) {n m : Nat} (h : n ≤ m) (l : List Group) :
    Sim d R (parse_groups cfg n l : OP σ₁ _) (parse_groups cfg m l : OP σ₂ _) := by
  unfold parse_groups; sim
macro_rules | `(tactic| sim_step) => `(tactic| exact sim_parse_groups ‹_› _ ‹_› _)

theorem sim_mtllib_line_loop (cfg : Limits) {n m : Nat} (h : n ≤ m) (l : List Bytes) (k : Nat) :
    Sim d R (mtllib_line_loop cfg n l k : OP σ₁ _) (mtllib_line_loop cfg m l k : OP σ₂ _) := by
  induction n generalizing m l k with
  | zero => exact Sim.outOfFuel _
  | succ n ih =>
    obtain ⟨m, rfl⟩ : ∃ k, m = k + 1 := ⟨m - 1, by omega⟩
    have ih := fun l k => ih (m := m) (by omega) l k
    unfold mtllib_line_loop
    sim
    all_goals exact ih _ _
macro_rules | `(tactic| sim_step) => `(tactic| exact sim_mtllib_line_loop ‹_› _ ‹_› _ _)

theorem sim_parse_material_library_line (cfg : Limits) {n m : Nat} (h : n ≤ m) (l : List Bytes) :
    Sim d R (parse_material_library_line cfg n l : OP σ₁ _) (parse_material_library_line cfg m l : OP σ₂ _) := by
  unfold parse_material_library_line; sim
macro_rules | `(tactic| sim_step) => `(tactic| exact sim_parse_material_library_line ‹_› _ ‹_› _)

theorem sim_mtllibs_loop (cfg : Limits) {f0 g0 : Nat} (h0 : f0 ≤ g0) {n m : Nat} (h : n ≤ m) (l : List Bytes) :
    Sim d R (mtllibs_loop cfg f0 n l : OP σ₁ _) (mtllibs_loop cfg g0 m l : OP σ₂ _) := by
  induction n generalizing m l with
  | zero => exact Sim.outOfFuel _
  | succ n ih =>
    obtain ⟨m, rfl⟩ : ∃ k, m = k + 1 := ⟨m - 1, by omega⟩
    have ih := fun l => ih (m := m) (by omega) l
    unfold mtllibs_loop
    sim
    all_goals exact ih _
macro_rules | `(tactic| sim_step) => `(tactic| exact sim_mtllibs_loop ‹_› _ ‹_› ‹_› _)

theorem sim_parse_material_libraries (cfg : Limits) {n m : Nat} (h : n ≤ m) :
    Sim d R (parse_material_libraries cfg n : OP σ₁ _) (parse_material_libraries cfg m : OP σ₂ _) := by
  unfold parse_material_libraries; sim
macro_rules | `(tactic| sim_step) => `(tactic| exact sim_parse_material_libraries ‹_› _ ‹_›)

variable {F : Type} [FloatSem F]

omit [FloatSem F] in
theorem sim_step_g (cfg : Limits) {n m : Nat} (h : n ≤ m) (st : ObjState F) :
    Sim d R (step_g cfg n st : OP σ₁ _) (step_g cfg m st : OP σ₂ _) := by
  unfold step_g; sim
macro_rules | `(tactic| sim_step) => `(tactic| exact sim_step_g ‹_› _ ‹_› _)

omit [FloatSem F] in
theorem sim_step_s (cfg : Limits) (st : ObjState F) :
    Sim d R (step_s cfg st : OP σ₁ _) (step_s cfg st : OP σ₂ _) := by
  unfold step_s; sim
macro_rules | `(tactic| sim_step) => `(tactic| exact sim_step_s ‹_› _ _)

omit [FloatSem F] in
theorem sim_step_usemtl (cfg : Limits) (st : ObjState F) :
    Sim d R (step_usemtl cfg st : OP σ₁ _) (step_usemtl cfg st : OP σ₂ _) := by
  unfold step_usemtl; sim
macro_rules | `(tactic| sim_step) => `(tactic| exact sim_step_usemtl ‹_› _ _)

theorem sim_step_v (cfg : Limits) (st : ObjState F) :
    Sim d R (step_v cfg st : OP σ₁ _) (step_v cfg st : OP σ₂ _) := by
  unfold step_v; sim
macro_rules | `(tactic| sim_step) => `(tactic| exact sim_step_v ‹_› _ _)

theorem sim_step_vt (cfg : Limits) (st : ObjState F) :
    Sim d R (step_vt cfg st : OP σ₁ _) (step_vt cfg st : OP σ₂ _) := by
  unfold step_vt; sim
macro_rules | `(tactic| sim_step) => `(tactic| exact sim_step_vt ‹_› _ _)

theorem sim_step_vn (cfg : Limits) (st : ObjState F) :
    Sim d R (step_vn cfg st : OP σ₁ _) (step_vn cfg st : OP σ₂ _) := by
  unfold step_vn; sim
macro_rules | `(tactic| sim_step) => `(tactic| exact sim_step_vn ‹_› _ _)

omit [FloatSem F] in
theorem sim_step_element (cfg : Limits) {n m : Nat} (h : n ≤ m) (st : ObjState F) :
    Sim d R (step_element cfg n st : OP σ₁ _) (step_element cfg m st : OP σ₂ _) := by
  unfold step_element; sim
macro_rules | `(tactic| sim_step) => `(tactic| exact sim_step_element ‹_› _ ‹_› _)

theorem sim_object_loop (cfg : Limits) {f0 g0 : Nat} (h0 : f0 ≤ g0) {n m : Nat} (h : n ≤ m) (st : ObjState F) :
    Sim d R (object_loop cfg f0 n st : OP σ₁ _) (object_loop cfg g0 m st : OP σ₂ _) := by
  induction n generalizing m st with
  | zero => exact Sim.outOfFuel _
  | succ n ih =>
    obtain ⟨m, rfl⟩ : ∃ k, m = k + 1 := ⟨m - 1, by omega⟩
    have ih := fun st => ih (m := m) (by omega) st
    unfold object_loop
    sim
    all_goals exact ih _
macro_rules | `(tactic| sim_step) => `(tactic| exact sim_object_loop ‹_› _ ‹_› ‹_› _)

theorem sim_parse_object (cfg : Limits) {n m : Nat} (h : n ≤ m) (c : Counters) :
    Sim d R (parse_object cfg n c : OP σ₁ (Object F × Counters)) (parse_object cfg m c : OP σ₂ _) := by
  unfold parse_object; sim
  exact Sim.lift_ok (finishObject_ne_err _ _ _)
macro_rules | `(tactic| sim_step) => `(tactic| exact sim_parse_object ‹_› _ ‹_› _)

theorem sim_parse_objects_loop (cfg : Limits) {f0 g0 : Nat} (h0 : f0 ≤ g0) {n m : Nat} (h : n ≤ m) (c : Counters) (l : List (Object F)) :
    Sim d R (parse_objects_loop cfg f0 n c l : OP σ₁ _) (parse_objects_loop cfg g0 m c l : OP σ₂ _) := by
  induction n generalizing m c l with
  | zero => exact Sim.outOfFuel _
  | succ n ih =>
    obtain ⟨m, rfl⟩ : ∃ k, m = k + 1 := ⟨m - 1, by omega⟩
    have ih := fun c l => ih (m := m) (by omega) c l
    unfold parse_objects_loop
    sim
    all_goals exact ih _ _
macro_rules | `(tactic| sim_step) => `(tactic| exact sim_parse_objects_loop ‹_› _ ‹_› ‹_› _ _)

theorem sim_parse_objects (cfg : Limits) {n m : Nat} (h : n ≤ m) :
    Sim d R (parse_objects cfg n : OP σ₁ (List (Object F))) (parse_objects cfg m : OP σ₂ _) := by
  unfold parse_objects; sim
macro_rules | `(tactic| sim_step) => `(tactic| exact sim_parse_objects ‹_› _ ‹_›)

theorem sim_parse_objset (cfg : Limits) {n m : Nat} (h : n ≤ m) :
    Sim d R (parse_objset cfg n : OP σ₁ (ObjectSet F)) (parse_objset cfg m : OP σ₂ _) := by
  unfold parse_objset; sim
macro_rules | `(tactic| sim_step) => `(tactic| exact sim_parse_objset ‹_› _ ‹_›)

end

theorem Rel.eq {K α : Type} {q p : P (List Tok) K α} {toks : List Tok} (h : Rel q p toks fun b a _ => b = a)
    (line : Nat) : q ⟨line, toks⟩ = p ⟨line, toks⟩ := by
  have := h line
  generalize q ⟨line, toks⟩ = x at this
  generalize p ⟨line, toks⟩ = y at this
  cases this with
  | ok _ h => rw [h]
  | err => rfl
  | panic => rfl
  | fuel => rfl

variable {F : Type} [FloatSem F]

/-- The parser has some run on the tokens of the input. -/
theorem exists_run (cfg : Cfg) {input : Bytes} (hlen : input.length < 2 ^ 63) :
    ∃ (o : Res ErrorKind (ObjectSet F)) (rest : List Tok),
      Yields (Obj.parse_objset cfg (input.length + 1)) (Spec.tokens input) o rest := by
  have ht := Spec.length_tokens_le input
  rcases file_total cfg (Spec.tokens input) with ⟨file, hf⟩ | ⟨k, m, rest, hf⟩ | ⟨x, hf⟩
  · exact ⟨_, _, file_ok hf (by omega) (by omega)⟩
  · exact ⟨_, _, file_err hf (by omega) (by omega)⟩
  · obtain ⟨rest, h⟩ := file_panic (F := F) hf (fuel := input.length + 1) (by omega) (by omega)
    exact ⟨_, _, h⟩

end Verif.Obj.Checked

namespace Verif.Mtl

variable {F : Type} [FloatSem F]

/-- The parser has some run on the tokens of the input. -/
theorem exists_run (input : Bytes) :
    ∃ (o : Res ErrorKind (MaterialSet F)) (rest : List Tok),
      Yields (parse_mtlset (input.length + 1)) (Spec.tokens input) o rest := by
  have ht := Spec.length_tokens_le input
  rcases file_total (Spec.tokens input) with ⟨file, hf⟩ | ⟨k, m, rest, hf⟩
  · exact ⟨_, _, file_ok hf (by omega)⟩
  · exact ⟨_, _, file_err hf (by omega)⟩

end Verif.Mtl
