import Verif.Proofs.WidthObj
import Verif.Proofs.SimMtl

/-!
# The parsers on a target of any pointer width, on bytes

Simulation lemmas for the methods that depend on the width, and the runs on a text.
-/

namespace Verif.Obj.Width

open Verif Verif.Obj Verif.Width

section
variable {σ₁ σ₂ : Type} [TokStream σ₁] [TokStream σ₂] {d : Nat} {R : σ₁ → σ₂ → Prop}
  (hR : Bisim R)

omit [TokStream σ₁] [TokStream σ₂] in
theorem sim_calculate_index (tgt : Target) (r : Nat × Nat) (v : Int) :
    Sim d R (calculate_index tgt r v : OP σ₁ _) (calculate_index tgt r v : OP σ₂ _) := by
  unfold calculate_index; sim
macro_rules | `(tactic| sim_step) => `(tactic| exact sim_calculate_index _ _ _)

omit [TokStream σ₁] [TokStream σ₂] in
theorem sim_process_split (tgt : Target) (b : Bytes) (r : Nat × Nat) :
    Sim d R (process_split tgt b r : OP σ₁ _) (process_split tgt b r : OP σ₂ _) := by
  unfold process_split; sim
macro_rules | `(tactic| sim_step) => `(tactic| exact sim_process_split _ _ _)

omit [TokStream σ₁] [TokStream σ₂] in
theorem sim_process_next_split (tgt : Target) (b : Option Bytes) (r : Nat × Nat) :
    Sim d R (process_next_split tgt b r : OP σ₁ _) (process_next_split tgt b r : OP σ₂ _) := by
  unfold process_next_split; sim
macro_rules | `(tactic| sim_step) => `(tactic| exact sim_process_next_split _ _ _)

include hR

theorem sim_parse_isize (tgt : Target) :
    Sim d R (parse_isize tgt : OP σ₁ _) (parse_isize tgt : OP σ₂ _) := by
  unfold parse_isize; sim
macro_rules | `(tactic| sim_step) => `(tactic| exact sim_parse_isize ‹_› _)

theorem sim_parse_vtn_index (tgt : Target) (r : Ranges) :
    Sim d R (parse_vtn_index tgt r : OP σ₁ _) (parse_vtn_index tgt r : OP σ₂ _) := by
  unfold parse_vtn_index; sim
macro_rules | `(tactic| sim_step) => `(tactic| exact sim_parse_vtn_index ‹_› _ _)

theorem sim_parse_vtn_indices (tgt : Target) (r : Ranges) {n m : Nat} (h : n ≤ m) (l : List VTNIndex) (k : Nat) :
    Sim d R (parse_vtn_indices tgt r n l k : OP σ₁ _) (parse_vtn_indices tgt r m l k : OP σ₂ _) := by
  induction n generalizing m l k with
  | zero => exact Sim.outOfFuel _
  | succ n ih =>
    obtain ⟨m, rfl⟩ : ∃ k, m = k + 1 := ⟨m - 1, by omega⟩
    have ih := fun l k => ih (m := m) (by omega) l k
    unfold parse_vtn_indices
    sim
    all_goals exact ih _ _
macro_rules | `(tactic| sim_step) => `(tactic| exact sim_parse_vtn_indices ‹_› _ _ ‹_› _ _)

theorem sim_parse_point_loop (tgt : Target) (r : Nat × Nat) {n m : Nat} (h : n ≤ m) (l : List Element) (k : Nat) :
    Sim d R (parse_point_loop tgt r n l k : OP σ₁ _) (parse_point_loop tgt r m l k : OP σ₂ _) := by
  induction n generalizing m l k with
  | zero => exact Sim.outOfFuel _
  | succ n ih =>
    obtain ⟨m, rfl⟩ : ∃ k, m = k + 1 := ⟨m - 1, by omega⟩
    have ih := fun l k => ih (m := m) (by omega) l k
    unfold parse_point_loop
    sim
    all_goals exact ih _ _
macro_rules | `(tactic| sim_step) => `(tactic| exact sim_parse_point_loop ‹_› _ _ ‹_› _ _)

theorem sim_parse_point (tgt : Target) {n m : Nat} (h : n ≤ m) (l : List Element) (r : Nat × Nat) :
    Sim d R (parse_point tgt n l r : OP σ₁ _) (parse_point tgt m l r : OP σ₂ _) := by
  unfold parse_point; sim
macro_rules | `(tactic| sim_step) => `(tactic| exact sim_parse_point ‹_› _ ‹_› _ _)

theorem sim_parse_line (tgt : Target) {n m : Nat} (h : n ≤ m) (l : List Element) (r : Ranges) :
    Sim d R (parse_line tgt n l r : OP σ₁ _) (parse_line tgt m l r : OP σ₂ _) := by
  unfold parse_line; sim
macro_rules | `(tactic| sim_step) => `(tactic| exact sim_parse_line ‹_› _ ‹_› _ _)

theorem sim_parse_face (tgt : Target) {n m : Nat} (h : n ≤ m) (l : List Element) (r : Ranges) :
    Sim d R (parse_face tgt n l r : OP σ₁ _) (parse_face tgt m l r : OP σ₂ _) := by
  unfold parse_face; sim
macro_rules | `(tactic| sim_step) => `(tactic| exact sim_parse_face ‹_› _ ‹_› _ _)

theorem sim_parse_elements (tgt : Target) {n m : Nat} (h : n ≤ m) (l : List Element) (r : Ranges) :
    Sim d R (parse_elements tgt n l r : OP σ₁ _) (parse_elements tgt m l r : OP σ₂ _) := by
  unfold parse_elements; sim
macro_rules | `(tactic| sim_step) => `(tactic| exact sim_parse_elements ‹_› _ ‹_› _ _)

theorem sim_parse_smoothing_group (tgt : Target) (l : List SmoothingGroup) :
    Sim d R (parse_smoothing_group tgt l : OP σ₁ _) (parse_smoothing_group tgt l : OP σ₂ _) := by
  unfold parse_smoothing_group; sim
macro_rules | `(tactic| sim_step) => `(tactic| exact sim_parse_smoothing_group ‹_› _ _)

variable {F : Type} [FloatSem F]

omit [FloatSem F] in
theorem sim_step_s (tgt : Target) (st : ObjState F) :
    Sim d R (step_s tgt st : OP σ₁ _) (step_s tgt st : OP σ₂ _) := by
  unfold step_s; sim
macro_rules | `(tactic| sim_step) => `(tactic| exact sim_step_s ‹_› _ _)

omit [FloatSem F] in
theorem sim_step_element (tgt : Target) {n m : Nat} (h : n ≤ m) (st : ObjState F) :
    Sim d R (step_element tgt n st : OP σ₁ _) (step_element tgt m st : OP σ₂ _) := by
  unfold step_element; sim
macro_rules | `(tactic| sim_step) => `(tactic| exact sim_step_element ‹_› _ ‹_› _)

theorem sim_object_loop (tgt : Target) {f0 g0 : Nat} (h0 : f0 ≤ g0) {n m : Nat} (h : n ≤ m) (st : ObjState F) :
    Sim d R (object_loop tgt f0 n st : OP σ₁ _) (object_loop tgt g0 m st : OP σ₂ _) := by
  induction n generalizing m st with
  | zero => exact Sim.outOfFuel _
  | succ n ih =>
    obtain ⟨m, rfl⟩ : ∃ k, m = k + 1 := ⟨m - 1, by omega⟩
    have ih := fun st => ih (m := m) (by omega) st
    unfold object_loop
    sim
    all_goals exact ih _
macro_rules | `(tactic| sim_step) => `(tactic| exact sim_object_loop ‹_› _ ‹_› ‹_› _)

theorem sim_parse_object (tgt : Target) {n m : Nat} (h : n ≤ m) (c : Counters) :
    Sim d R (parse_object tgt n c : OP σ₁ (Object F × Counters)) (parse_object tgt m c : OP σ₂ _) := by
  unfold parse_object; sim
  exact Sim.lift_ok (finishObject_ne_err _ _ _)
macro_rules | `(tactic| sim_step) => `(tactic| exact sim_parse_object ‹_› _ ‹_› _)

theorem sim_parse_objects_loop (tgt : Target) {f0 g0 : Nat} (h0 : f0 ≤ g0) {n m : Nat} (h : n ≤ m) (c : Counters) (l : List (Object F)) :
    Sim d R (parse_objects_loop tgt f0 n c l : OP σ₁ _) (parse_objects_loop tgt g0 m c l : OP σ₂ _) := by
  induction n generalizing m c l with
  | zero => exact Sim.outOfFuel _
  | succ n ih =>
    obtain ⟨m, rfl⟩ : ∃ k, m = k + 1 := ⟨m - 1, by omega⟩
    have ih := fun c l => ih (m := m) (by omega) c l
    unfold parse_objects_loop
    sim
    all_goals exact ih _ _
macro_rules | `(tactic| sim_step) => `(tactic| exact sim_parse_objects_loop ‹_› _ ‹_› ‹_› _ _)

theorem sim_parse_objects (tgt : Target) {n m : Nat} (h : n ≤ m) :
    Sim d R (parse_objects tgt n : OP σ₁ (List (Object F))) (parse_objects tgt m : OP σ₂ _) := by
  unfold parse_objects; sim
macro_rules | `(tactic| sim_step) => `(tactic| exact sim_parse_objects ‹_› _ ‹_›)

theorem sim_parse_objset (tgt : Target) {n m : Nat} (h : n ≤ m) :
    Sim d R (parse_objset tgt n : OP σ₁ (ObjectSet F)) (parse_objset tgt m : OP σ₂ _) := by
  unfold parse_objset; sim
macro_rules | `(tactic| sim_step) => `(tactic| exact sim_parse_objset ‹_› _ ‹_›)

end

end Verif.Obj.Width

namespace Verif.Mtl.Width

open Verif Verif.Mtl Verif.Width

section
variable {σ₁ σ₂ : Type} [TokStream σ₁] [TokStream σ₂] {d : Nat} {R : σ₁ → σ₂ → Prop}
  (hR : Bisim R)
include hR

theorem sim_parse_usize (w : Nat) : Sim d R (parse_usize w : MP σ₁ _) (parse_usize w : MP σ₂ _) := by
  unfold parse_usize; sim
macro_rules | `(tactic| sim_step) => `(tactic| exact sim_parse_usize ‹_› _)

theorem sim_parse_illumination_model (w : Nat) :
    Sim d R (parse_illumination_model w : MP σ₁ _) (parse_illumination_model w : MP σ₂ _) := by
  unfold parse_illumination_model; sim
macro_rules | `(tactic| sim_step) => `(tactic| exact sim_parse_illumination_model ‹_› _)

variable {F : Type} [FloatSem F]

theorem sim_material_step (w : Nat) (t : Tok) (m : Material F) :
    Sim d R (material_step w t m : MP σ₁ _) (material_step w t m : MP σ₂ _) := by
  unfold material_step; sim
macro_rules | `(tactic| sim_step) => `(tactic| exact sim_material_step ‹_› _ _ _)

theorem sim_material_loop (w : Nat) {f0 g0 : Nat} (h0 : f0 ≤ g0) {n m : Nat} (h : n ≤ m) (a : Material F) :
    Sim d R (material_loop w f0 n a : MP σ₁ _) (material_loop w g0 m a : MP σ₂ _) := by
  induction n generalizing m a with
  | zero => exact Sim.outOfFuel _
  | succ n ih =>
    obtain ⟨m, rfl⟩ : ∃ k, m = k + 1 := ⟨m - 1, by omega⟩
    have ih := fun a => ih (m := m) (by omega) a
    unfold material_loop
    sim
    exact ih _
macro_rules | `(tactic| sim_step) => `(tactic| exact sim_material_loop ‹_› _ ‹_› ‹_› _)

theorem sim_parse_material (w : Nat) {n m : Nat} (h : n ≤ m) :
    Sim d R (parse_material w n : MP σ₁ (Material F)) (parse_material w m : MP σ₂ _) := by
  unfold parse_material; sim
macro_rules | `(tactic| sim_step) => `(tactic| exact sim_parse_material ‹_› _ ‹_›)

theorem sim_mtlset_loop (w : Nat) {f0 g0 : Nat} (h0 : f0 ≤ g0) {n m : Nat} (h : n ≤ m)
    (a : List (Material F)) :
    Sim d R (mtlset_loop w f0 n a : MP σ₁ _) (mtlset_loop w g0 m a : MP σ₂ _) := by
  induction n generalizing m a with
  | zero => exact Sim.outOfFuel _
  | succ n ih =>
    obtain ⟨m, rfl⟩ : ∃ k, m = k + 1 := ⟨m - 1, by omega⟩
    have ih := fun a => ih (m := m) (by omega) a
    unfold mtlset_loop
    sim
    exact ih _
macro_rules | `(tactic| sim_step) => `(tactic| exact sim_mtlset_loop ‹_› _ ‹_› ‹_› _)

theorem sim_parse_mtlset (w : Nat) {n m : Nat} (h : n ≤ m) :
    Sim d R (parse_mtlset w n : MP σ₁ (MaterialSet F)) (parse_mtlset w m : MP σ₂ _) := by
  unfold parse_mtlset; sim

end

/-- The condition on a token. -/
def Good (S : Prop) (w : Nat) (t : Tok) : Prop := S → ∀ k, parseUsize t = some k → k < 2 ^ w

section
variable {S : Prop} {w : Nat} (h2 : 2 ≤ w) (h64 : w ≤ 64) {toks : List Tok}
include h2 h64

theorem rel_illumination_model :
    Rel S (Good S w) (parse_illumination_model w) Mtl.parse_illumination_model toks fun b a _ => b = a := by
  unfold parse_illumination_model Mtl.parse_illumination_model parse_usize Mtl.parse_usize
  refine Rel.bind (Rel.of_sim fun n => sim_expect_tag sameLe_bisim _) ?_
  rintro _ _ rest hl -
  rw [bind_assoc, bind_assoc]
  unfold next_string
  rw [bind_assoc, bind_assoc]
  refine Rel.bind Rel.next ?_
  rintro b _ rest' hl' ⟨rfl, rfl | ⟨t, rfl, hg, -⟩⟩
  · exact Rel.error _ _
  · have hb : ∀ {α β : Type} (a : α) (f : α → MP (List Tok) β), (Pure.pure a >>= f) = f a := fun _ _ => rfl
    have he : ∀ {α β : Type} (k : ErrorKind) (m : Bytes) (f : α → MP (List Tok) β),
      (P.error k m >>= f) = P.error k m := fun _ _ _ => rfl
    dsimp only
    rw [hb, hb]
    cases hk : parseUsize t with
    | none =>
      rw [parseUsizeAt_none h64 hk]
      exact Rel.error _ _
    | some k =>
      have h4 : 2 ^ 2 ≤ 2 ^ w := Nat.pow_le_pow_right (by decide) h2
      rw [parseUsizeAt_some hk]
      split
      · rename_i v hv
        split at hv
        · cases hv
          dsimp only
          rw [hb, hb]
          rcases k with _ | _ | _ | k
          · exact Rel.pure rfl
          · exact Rel.pure rfl
          · exact Rel.pure rfl
          · exact Rel.error _ _
        · cases hv
      · rename_i hv
        split at hv
        · cases hv
        · rename_i hn
          have hn' : 4 ≤ k := by simp only [usizeMaxAt] at hn; omega
          have hS : ¬ S := fun hS => hn (by have := hg hS k hk; simp only [usizeMaxAt]; omega)
          dsimp only
          rw [hb, he]
          obtain ⟨j, rfl⟩ : ∃ j, k = j + 4 := ⟨k - 4, by omega⟩
          exact Rel.error_ne _ _ _ _ hS

variable {F : Type} [FloatSem F]

theorem rel_material_step (t : Tok) (m : Material F) :
    Rel S (Good S w) (material_step w t m) (Mtl.material_step t m) toks fun b a _ => b = a := by
  unfold material_step
  by_cases h : t = b!"illum"
  · rw [if_pos h]
    subst h
    unfold Mtl.material_step
    rw [if_neg (by decide), if_neg (by decide), if_neg (by decide), if_neg (by decide), if_neg (by decide),
      if_pos rfl]
    refine Rel.bind (rel_illumination_model h2 h64) ?_
    rintro x _ rest _ rfl
    exact Rel.pure rfl
  · rw [if_neg h]
    exact Rel.of_sim fun n => Mtl.sim_material_step sameLe_bisim _ _

theorem rel_material_loop (fuel0 fuel : Nat) (m : Material F) (toks : List Tok) :
    Rel S (Good S w) (material_loop w fuel0 fuel m) (Mtl.material_loop fuel0 fuel m) toks fun b a _ => b = a := by
  induction fuel generalizing m toks with
  | zero => exact Rel.outOfFuel
  | succ fuel ih =>
    unfold material_loop Mtl.material_loop
    refine Rel.bind Rel.peek ?_
    rintro b a rest hl ⟨rfl, -, rfl⟩
    cases b with
    | none => exact Rel.pure rfl
    | some t =>
      refine Rel.ite (fun _ => Rel.pure rfl) fun _ => ?_
      refine Rel.bind (rel_material_step h2 h64 t m) ?_
      rintro m' _ rest' _ rfl
      refine Rel.bind (Rel.of_sim fun n => sim_skip_zero sameLe_bisim (Nat.le_refl _)) ?_
      rintro _ _ rest'' _ -
      exact ih _ _

theorem rel_material (fuel : Nat) (toks : List Tok) :
    Rel S (Good S w) (parse_material w fuel) (Mtl.parse_material fuel : MP _ (Material F)) toks
      fun b a _ => b = a := by
  unfold parse_material Mtl.parse_material
  refine Rel.bind (Rel.of_sim fun n => sim_parse_newmtl sameLe_bisim) ?_
  rintro name _ rest _ rfl
  refine Rel.bind (Rel.of_sim fun n => sim_skip_zero sameLe_bisim (Nat.le_refl _)) ?_
  rintro _ _ rest' _ -
  exact rel_material_loop h2 h64 _ _ _ _

theorem rel_mtlset_loop (fuel0 fuel : Nat) (l : List (Material F)) (toks : List Tok) :
    Rel S (Good S w) (mtlset_loop w fuel0 fuel l) (Mtl.mtlset_loop fuel0 fuel l) toks fun b a _ => b = a := by
  induction fuel generalizing l toks with
  | zero => exact Rel.outOfFuel
  | succ fuel ih =>
    unfold mtlset_loop Mtl.mtlset_loop
    refine Rel.bind Rel.peek ?_
    rintro b a rest hl ⟨rfl, -, rfl⟩
    refine Rel.ite (fun _ => ?_) fun _ => Rel.pure rfl
    refine Rel.bind (rel_material h2 h64 fuel0 _) ?_
    rintro m _ rest' _ rfl
    exact ih _ _

theorem rel_mtlset (fuel : Nat) (toks : List Tok) :
    Rel S (Good S w) (parse_mtlset w fuel) (Mtl.parse_mtlset fuel : MP _ (MaterialSet F)) toks
      fun b a _ => b = a := by
  unfold parse_mtlset Mtl.parse_mtlset
  refine Rel.bind (Rel.of_sim fun n => sim_skip_zero sameLe_bisim (Nat.le_refl _)) ?_
  rintro _ _ rest _ -
  refine Rel.bind (rel_mtlset_loop h2 h64 _ _ _ _) ?_
  rintro l _ rest' _ rfl
  refine Rel.bind Rel.peek ?_
  rintro b a rest'' hl ⟨rfl, -, rfl⟩
  cases b with
  | none => exact Rel.pure rfl
  | some t => exact Rel.error _ _

end

end Verif.Mtl.Width

namespace Verif.Width

/-- A run on the token list that has fuel is a run on the text. -/
theorem run_text {K α : Type} {p : P (List Tok) K α} {q : P PeekableLexer K α} {input : Bytes}
    (hsim : Sim 0 (fun a b => Holds b a) p q) (hf : (p ⟨1, Spec.tokens input⟩).1 ≠ .outOfFuel) :
    (q ⟨1, PeekableLexer.new (Lexer.new input)⟩).1 = (p ⟨1, Spec.tokens input⟩).1 := by
  have h1 := (hsim.run ⟨1, Spec.tokens input⟩ ⟨1, PeekableLexer.new (Lexer.new input)⟩
    ⟨rfl, holds_new input⟩).1
  generalize (q ⟨1, PeekableLexer.new (Lexer.new input)⟩).1 = x at h1 ⊢
  generalize (p ⟨1, Spec.tokens input⟩).1 = y at h1 hf ⊢
  cases y <;> cases x <;> simp_all [OutRel]

end Verif.Width
