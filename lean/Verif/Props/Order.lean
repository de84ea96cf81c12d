import Verif.Proofs.Swap
import Verif.Proofs.ObjTop
import Verif.Props.Samples

/-!
# Property C70

Swapping lines of OBJ texts.
-/

namespace Verif.Props

open Verif Verif.Spec

variable {F : Type} [FloatSem F] {cfg : Obj.Cfg} {a b l₁ l₂ : Bytes}

theorem tokens_swapped (ha : a = [] ∨ a.getLast? = some 10) :
    Obj.Swapped (tokens l₁) (tokens l₂) (tokens (a ++ (l₁ ++ 10 :: (l₂ ++ 10 :: b))))
      (tokens (a ++ (l₂ ++ 10 :: (l₁ ++ 10 :: b)))) := by
  rcases ha with rfl | ha
  · refine ⟨[], tokens b, .inl rfl, ?_, ?_⟩ <;> simp only [List.nil_append, tokens_append_nl]
  · obtain ⟨a', rfl⟩ : ∃ a', a = a' ++ [10] := by
      obtain ⟨a', e⟩ := List.getLast?_eq_some_iff.mp ha
      exact ⟨a', e⟩
    refine ⟨tokens a' ++ [nl], tokens b, .inr (by simp), ?_, ?_⟩ <;>
      simp only [List.append_assoc, List.cons_append, List.nil_append, tokens_append_nl]

/-- **C70** Two adjacent lines, each with one statement other than an element and starting with
different words, may be swapped in an accepted text: the result stays the same. -/
theorem C70_swap (hlen : (a ++ (l₁ ++ 10 :: (l₂ ++ 10 :: b))).length < 2 ^ 63)
    (ha : a = [] ∨ a.getLast? = some 10) {x y : Obj.Item} (hx : Obj.Line x (tokens l₁))
    (hy : Obj.Line y (tokens l₂)) (hxy : (tokens l₁).head? ≠ (tokens l₂).head?) (r : Obj.ObjectSet F) :
    Obj.parse cfg (a ++ (l₁ ++ 10 :: (l₂ ++ 10 :: b))) = .ok r ↔
      Obj.parse cfg (a ++ (l₂ ++ 10 :: (l₁ ++ 10 :: b))) = .ok r := by
  have hlen' : (a ++ (l₂ ++ 10 :: (l₁ ++ 10 :: b))).length < 2 ^ 63 := by
    simp only [List.length_append, List.length_cons] at hlen ⊢
    omega
  rw [Obj.stmt_head hx.stmt, Obj.stmt_head hy.stmt] at hxy
  have hne : x.word ≠ y.word := fun h => hxy (by rw [h])
  rw [Obj.parse_ok_iff hlen, Obj.parse_ok_iff hlen']
  constructor
  · rintro ⟨file, hf, rfl⟩
    obtain ⟨file', h1, h2⟩ := Obj.file_swap hx hy hne F hf (tokens_swapped ha)
    exact ⟨file', h1, h2.symm⟩
  · rintro ⟨file, hf, rfl⟩
    obtain ⟨file', h1, h2⟩ := Obj.file_swap hy hx hne.symm F hf (Obj.swapped_symm (tokens_swapped ha))
    exact ⟨file', h1, h2.symm⟩

/-- What such lines are. -/
example : Obj.Line (.vt b!"0.5" (some b!"1") none) (tokens b!" vt 0.5 1 # uv") ∧
    Obj.Line (.g [b!"left", b!"top"]) (tokens b!"g left top") := by
  refine ⟨⟨?_, rfl⟩, ⟨?_, rfl⟩⟩
  · exact .vt2 (by decide) (by decide) (by intro t ht; cases ht)
  · exact .g (names := [b!"left", b!"top"]) (mid := []) (by decide) (.inr ⟨rfl, rfl⟩)

/-- Swapping two `v` lines, or a `v` line with an element, does make a difference. -/
example : (Obj.parse debug b!"v 1 1 1\nv 2 2 2\np 1\n" : Out Obj.ErrorKind (Obj.ObjectSet Bytes)) ≠
      Obj.parse debug b!"v 2 2 2\nv 1 1 1\np 1\n" ∧
    (Obj.parse debug b!"v 1 1 1\np 1\n" : Out Obj.ErrorKind (Obj.ObjectSet Bytes)) ≠
      Obj.parse debug b!"p 1\nv 1 1 1\n" := by decide +kernel

end Verif.Props
