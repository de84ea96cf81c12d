import Verif.Model.Mtl
import Verif.Proofs.Sim

/-!
# Simulation lemmas for every method of the MTL parser
-/

namespace Verif.Mtl

open Verif

section
variable {σ₁ σ₂ : Type} [TokStream σ₁] [TokStream σ₂] {d : Nat} {R : σ₁ → σ₂ → Prop}
  (hR : Bisim R)
include hR

theorem sim_next_string : Sim d R (next_string : MP σ₁ _) (next_string : MP σ₂ _) := by
  unfold next_string; sim
macro_rules | `(tactic| sim_step) => `(tactic| exact sim_next_string ‹_›)

theorem sim_expect_tag (t : Tok) : Sim d R (expect_tag t : MP σ₁ _) (expect_tag t : MP σ₂ _) := by
  unfold expect_tag; sim
macro_rules | `(tactic| sim_step) => `(tactic| exact sim_expect_tag ‹_› _)

theorem sim_parse_usize : Sim d R (parse_usize : MP σ₁ _) (parse_usize : MP σ₂ _) := by
  unfold parse_usize; sim
macro_rules | `(tactic| sim_step) => `(tactic| exact sim_parse_usize ‹_›)

theorem sim_parse_illumination_model :
    Sim d R (parse_illumination_model : MP σ₁ _) (parse_illumination_model : MP σ₂ _) := by
  unfold parse_illumination_model; sim
macro_rules | `(tactic| sim_step) => `(tactic| exact sim_parse_illumination_model ‹_›)

theorem sim_map_name : Sim d R (map_name : MP σ₁ _) (map_name : MP σ₂ _) := by
  unfold map_name; sim
macro_rules | `(tactic| sim_step) => `(tactic| exact sim_map_name ‹_›)

theorem sim_parse_map (t : Tok) : Sim d R (parse_map t : MP σ₁ _) (parse_map t : MP σ₂ _) := by
  unfold parse_map; sim
macro_rules | `(tactic| sim_step) => `(tactic| exact sim_parse_map ‹_› _)

theorem sim_parse_map_bump : Sim d R (parse_map_bump : MP σ₁ _) (parse_map_bump : MP σ₂ _) := by
  unfold parse_map_bump; sim
macro_rules | `(tactic| sim_step) => `(tactic| exact sim_parse_map_bump ‹_›)

theorem sim_parse_newmtl : Sim d R (parse_newmtl : MP σ₁ _) (parse_newmtl : MP σ₂ _) := by
  unfold parse_newmtl; sim
macro_rules | `(tactic| sim_step) => `(tactic| exact sim_parse_newmtl ‹_›)

variable {F : Type} [FloatSem F]

theorem sim_parse_f64 : Sim d R (parse_f64 : MP σ₁ F) (parse_f64 : MP σ₂ F) := by
  unfold parse_f64; sim
macro_rules | `(tactic| sim_step) => `(tactic| exact sim_parse_f64 ‹_›)

theorem sim_parse_color : Sim d R (parse_color : MP σ₁ (Color F)) (parse_color : MP σ₂ _) := by
  unfold parse_color; sim
macro_rules | `(tactic| sim_step) => `(tactic| exact sim_parse_color ‹_›)

theorem sim_material_step (t : Tok) (m : Material F) :
    Sim d R (material_step t m : MP σ₁ _) (material_step t m : MP σ₂ _) := by
  unfold material_step parse_ambient_component parse_diffuse_component parse_specular_component
    parse_emissive_component parse_dissolve_component parse_specular_exponent parse_optical_density
    parse_map_ambient parse_map_diffuse parse_map_specular parse_map_emissive
    parse_map_specular_exponent parse_map_displacement parse_map_dissolve parse_map_decal
  sim
macro_rules | `(tactic| sim_step) => `(tactic| exact sim_material_step ‹_› _ _)

theorem sim_material_loop {f0 g0 : Nat} (h0 : f0 ≤ g0) {n m : Nat} (h : n ≤ m) (a : Material F) :
    Sim d R (material_loop f0 n a : MP σ₁ _) (material_loop g0 m a : MP σ₂ _) := by
  induction n generalizing m a with
  | zero => exact Sim.outOfFuel _
  | succ n ih =>
    obtain ⟨m, rfl⟩ : ∃ k, m = k + 1 := ⟨m - 1, by omega⟩
    have ih := fun a => ih (m := m) (by omega) a
    unfold material_loop
    sim
    exact ih _
macro_rules | `(tactic| sim_step) => `(tactic| exact sim_material_loop ‹_› ‹_› ‹_› _)

theorem sim_parse_material {n m : Nat} (h : n ≤ m) :
    Sim d R (parse_material n : MP σ₁ (Material F)) (parse_material m : MP σ₂ _) := by
  unfold parse_material; sim
macro_rules | `(tactic| sim_step) => `(tactic| exact sim_parse_material ‹_› ‹_›)

theorem sim_mtlset_loop {f0 g0 : Nat} (h0 : f0 ≤ g0) {n m : Nat} (h : n ≤ m)
    (a : List (Material F)) :
    Sim d R (mtlset_loop f0 n a : MP σ₁ _) (mtlset_loop g0 m a : MP σ₂ _) := by
  induction n generalizing m a with
  | zero => exact Sim.outOfFuel _
  | succ n ih =>
    obtain ⟨m, rfl⟩ : ∃ k, m = k + 1 := ⟨m - 1, by omega⟩
    have ih := fun a => ih (m := m) (by omega) a
    unfold mtlset_loop
    sim
    exact ih _
macro_rules | `(tactic| sim_step) => `(tactic| exact sim_mtlset_loop ‹_› ‹_› ‹_› _)

theorem sim_parse_mtlset {n m : Nat} (h : n ≤ m) :
    Sim d R (parse_mtlset n : MP σ₁ (MaterialSet F)) (parse_mtlset m : MP σ₂ _) := by
  unfold parse_mtlset; sim

end

end Verif.Mtl
