import Verif.Proofs.Cost
import Verif.Proofs.ObjTop
import Verif.Props.Robust

/-!
# Property C72

How often the parsers call the lexer.
-/

namespace Verif.Props

open Verif Verif.Spec

variable {F : Type} [FloatSem F] {cfg : Obj.Cfg} {input : Bytes}

/-- A new lexer with a counter of the calls made to it. -/
def meter (input : Bytes) : PState (CallCount PeekableLexer) :=
  ⟨1, ⟨PeekableLexer.new (Lexer.new input), 0⟩⟩

theorem outRel_zero {K α : Type} {a b : Out K α} (h : OutRel 0 a b) (ha : a ≠ .outOfFuel) : a = b := by
  cases a <;> cases b <;> simp_all [OutRel]

theorem Costs.final {K α : Type} {h : Option Tok → Prop} {p : P (CallCount (List Tok)) K α} {f e : Nat}
    (hp : Costs h p (fun _ => (f : Int)) e) (hf : f ≤ e) (s : PState (CallCount (List Tok))) (hs : h s.lexer.src.head?) :
    (p s).2.lexer.calls ≤ s.lexer.calls + 8 * s.lexer.src.length + e := by
  rcases hr : p s with ⟨o, s'⟩
  by_cases ho : ∃ a, o = .ok a
  · obtain ⟨a, rfl⟩ := ho
    have := hp.ok s a s' hs hr
    simp only [spent] at this ⊢
    omega
  · have := hp.other s o s' hs hr fun a ha => ho ⟨a, ha⟩
    simp only [spent] at this ⊢
    omega

/-- **C72** However it ends, `obj::parse` calls `peek` and `next` of the lexer at most eight times
per token, and twelve times more. -/
theorem C72_calls_obj (hlen : input.length < 2 ^ 63) : ∃ n, n ≤ 8 * (tokens input).length + 12 ∧
    ∃ s, (Obj.parse_objset cfg (input.length + 1) (meter input) : Out _ (Obj.ObjectSet F) × _) =
      (Obj.parse cfg input, s) ∧ s.lexer.calls = n := by
  have plain := (Obj.sim_parse_objset (F := F) (σ₁ := PeekableLexer) (σ₂ := CallCount PeekableLexer) (d := 0)
    Bisim.forget.symm cfg (Nat.le_refl (input.length + 1))).run (Obj.Parser.new input) (meter input) ⟨rfl, rfl⟩
  have hne : (Obj.parse cfg input : Out _ (Obj.ObjectSet F)) ≠ .outOfFuel := Obj.parse_not_outOfFuel hlen
  have e1 := outRel_zero plain.1 hne
  have list := (Obj.sim_parse_objset (F := F) (σ₁ := CallCount PeekableLexer) (σ₂ := CallCount (List Tok)) (d := 0)
    holds_bisim.callCount cfg (Nat.le_refl (input.length + 1))).run (meter input) ⟨1, ⟨tokens input, 0⟩⟩
    ⟨rfl, holds_new input, rfl⟩
  have hc := Costs.final (f := 4) (e := 12) (Obj.cost_parse_objset (F := F) (h := fun _ => True) cfg (input.length + 1))
    (by omega) ⟨1, ⟨tokens input, 0⟩⟩ trivial
  rcases list.2 with h | h
  · exact absurd (e1.trans h) hne
  · refine ⟨_, ?_, _, Prod.ext e1.symm rfl, rfl⟩
    simp only [Nat.zero_add] at hc
    exact Nat.le_trans (Nat.le_of_eq h.2.2) hc

/-- **C72** The same for `mtl::parse`. -/
theorem C72_calls_mtl : ∃ n, n ≤ 8 * (tokens input).length + 12 ∧
    ∃ s, (Mtl.parse_mtlset (input.length + 1) (meter input) : Out _ (Mtl.MaterialSet F) × _) =
      (Mtl.parse input, s) ∧ s.lexer.calls = n := by
  have plain := (Mtl.sim_parse_mtlset (F := F) (σ₁ := PeekableLexer) (σ₂ := CallCount PeekableLexer) (d := 0)
    Bisim.forget.symm (Nat.le_refl (input.length + 1))).run (Mtl.Parser.new input) (meter input) ⟨rfl, rfl⟩
  have hne : (Mtl.parse input : Out _ (Mtl.MaterialSet F)) ≠ .outOfFuel := (C07_terminates_mtl _ (Nat.le_refl _)).2
  have e1 := outRel_zero plain.1 hne
  have list := (Mtl.sim_parse_mtlset (F := F) (σ₁ := CallCount PeekableLexer) (σ₂ := CallCount (List Tok)) (d := 0)
    holds_bisim.callCount (Nat.le_refl (input.length + 1))).run (meter input) ⟨1, ⟨tokens input, 0⟩⟩
    ⟨rfl, holds_new input, rfl⟩
  have hc := Costs.final (f := 3) (e := 12) (Mtl.cost_parse_mtlset (F := F) (h := fun _ => True) (input.length + 1))
    (by omega) ⟨1, ⟨tokens input, 0⟩⟩ trivial
  rcases list.2 with h | h
  · exact absurd (e1.trans h) hne
  · refine ⟨_, ?_, _, Prod.ext e1.symm rfl, rfl⟩
    simp only [Nat.zero_add] at hc
    exact Nat.le_trans (Nat.le_of_eq h.2.2) hc

/-- 156 calls for the 86 tokens of the sample; nine for a single `g`, which is more than eight
per token. -/
example : (tokens sample).length = 86 ∧
    (Obj.parse_objset debug 1000 (meter sample) : Out _ (Obj.ObjectSet Bytes) × _).2.lexer.calls = 156 ∧
    (tokens b!"g").length = 1 ∧
    (Obj.parse_objset debug 1000 (meter b!"g") : Out _ (Obj.ObjectSet Bytes) × _).2.lexer.calls = 9 := by
  decide +kernel

end Verif.Props
