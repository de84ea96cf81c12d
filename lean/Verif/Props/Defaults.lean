import Verif.Model.Default
import Verif.Props.Image
import Verif.Props.Compare
import Verif.Props.Exact
import Verif.Props.Errors

/-!
# Property C99: defaults

The `Default` implementations and `Material::new`, and where the parsers use them.
-/

namespace Verif.Props

open Verif Verif.Spec

variable {F : Type} {cfg : Obj.Cfg} {input : Bytes}

section
open Verif.Obj Verif.Spec.Obj

/-- **C99** In the default object no index is found, and only itself is equal to it. -/
theorem C99_object [FloatEq F] (o : Object F) :
    (∀ x, (Object.default : Object F).get_vtn_triple x = none) ∧ (o.eq Object.default = true ↔ o = Object.default) := by
  refine ⟨fun x => by cases x <;> simp [Object.default, Object.get_vtn_triple], ?_⟩
  have nil : ∀ {α : Type} (eq : α → α → Bool) (l : List α), vecEq eq l [] = true ↔ l = [] := by
    intro α eq l
    cases l <;> simp [vecEq]
  obtain ⟨a, b, c, d, e, f, g, h, i⟩ := o
  simp only [Object.eq, Object.default, Bool.and_eq_true, beq_iff_eq, nil, Object.mk.injEq, and_assoc]

/-- **C99** An object of a result is never the default object, nor equal to it. -/
theorem C99_not_parsed [FloatSem F] [FloatEq F] (hlen : input.length < 2 ^ 63) {r : ObjectSet F}
    (h : Obj.parse cfg input = .ok r) : ∀ o ∈ r.objects, o.eq Object.default = false := by
  intro o ho
  rw [Bool.eq_false_iff, Ne, (C99_object o).2]
  rintro rfl
  exact (C14_geometry_partition hlen h _ ho).2.1 rfl

/-- **C99** If no `g` precedes the first element of an object, that element belongs to the default
group alone; if no `s` precedes it, to the default smoothing group. -/
theorem C99_first_element [FloatSem F] (hlen : input.length < 2 ^ 63) {file : FileAst} (hf : FileOk cfg (tokens input) file)
    {r : ObjectSet F} (h : Obj.parse cfg input = .ok r) {j : Nat} {ast : ObjAst}
    (ha : file.objects[j]? = some ast) {pre post : List Item} {it : Item}
    (hi : ast.items = pre ++ it :: post) (he : it.isElement = true) (hpre : ∀ x ∈ pre, x.isElement = false) (h0 : 0 < it.size) :
    ∃ o, r.objects[j]? = some o ∧ ∃ e, o.shape_set[0]? = some e ∧
      ((∀ x ∈ pre, ∀ names, x ≠ .g names) → e.groups.map (fun g => o.group_set[g]?) = [some Group.default]) ∧
      ((∀ x ∈ pre, ∀ n, x ≠ .s n) → o.smoothing_group_set[e.smoothing_group]? = some SmoothingGroup.default) := by
  have hs : sizes pre = 0 := by
    unfold sizes
    refine List.sum_eq_zero fun n hn => ?_
    obtain ⟨x, hx, rfl⟩ := List.mem_map.mp hn
    have := hpre x hx
    cases x <;> simp_all [Item.isElement, Item.size]
  obtain ⟨o, ho, e, hoe, hg⟩ := C51_groups hlen hf h ha hi he (i := 0) (by omega) (by omega)
  obtain ⟨o', ho', e', hoe', hsm⟩ := C16_smoothing hlen hf h ha hi he (i := 0) (by omega) (by omega)
  rw [ho] at ho'
  cases ho'
  rw [hoe] at hoe'
  cases hoe'
  refine ⟨o, ho, e, hoe, fun hn => ?_, fun hn => ?_⟩
  · have hd : groupsInForce pre.reverse = [b!"default"] := by
      have : ∀ l : List Item, (∀ x ∈ l, ∀ names, x ≠ .g names) → groupsInForce l = [b!"default"] := by
        intro l
        induction l with
        | nil => intro _; rfl
        | cons x l ih =>
          intro hl
          have hx := hl x List.mem_cons_self
          have := ih fun y hy => hl y (List.mem_cons_of_mem _ hy)
          cases x with
          | g names => exact absurd rfl (hx names)
          | _ => exact this
      exact this _ fun x hx => hn x (List.mem_reverse.mp hx)
    rw [hd] at hg
    match hgs : e.groups, hg with
    | [], hg => cases hg
    | [k], hg =>
      simp only [List.map_cons, List.map_nil, List.cons.injEq, and_true, Option.map_eq_some_iff] at hg ⊢
      obtain ⟨⟨n⟩, hk, rfl⟩ := hg
      exact hk
    | _ :: _ :: _, hg => simp at hg
  · have key : ∀ f : Item → Option Nat, (∀ x ∈ pre, f x = none) →
        some (⟨((pre.filterMap f).getLast?).getD 0⟩ : SmoothingGroup) = some SmoothingGroup.default := fun f hf => by
      rw [List.filterMap_eq_nil_iff.mpr hf]
      rfl
    rw [hsm]
    refine key _ fun x hx => ?_
    have hx' := hn x hx
    cases x with
    | s n => exact absurd rfl (hx' n)
    | _ => rfl

end

section
open Verif.Mtl Verif.Spec.Mtl

/-- **C99** A material without statements is `Material::new()` with its name. -/
theorem C99_material [FloatSem F] {name : Bytes} (hn : Spec.Obj.Word name) :
    (Mtl.parse (b!"newmtl " ++ name) : Out ErrorKind (MaterialSet F)) = .ok ⟨[{ Material.new with name := name }]⟩ := by
  have ht : tokens (b!"newmtl " ++ name) = [b!"newmtl", name] := by
    have h1 := Obj.tokens_token_blank (t := b!"newmtl") (.inl ⟨by decide, by decide⟩) name
    have h2 := tokensOf_word byteAlphabet name [] hn.1 (Obj.word_ordinary hn) (by simp)
    rw [List.append_nil, tokensOf_nil] at h2
    rw [show b!"newmtl " ++ name = b!"newmtl" ++ 32 :: name from rfl, h1, show tokens name = [name] from h2]
  have hf : FileOk (tokens (b!"newmtl " ++ name)) [⟨name, []⟩] := by
    rw [ht]
    exact .mats (.mat (.done (.inl rfl)) .done)
  rw [Mtl.parse_ok_of hf]
  rfl

end

/-! ## Examples -/

/-- The first element comes before any `g` and `s`. -/
example : (Obj.parse debug b!"v 0 0 0\np 1\ng a\ns 3\np 1" : Out Obj.ErrorKind (Obj.ObjectSet Bytes)) =
    .ok ⟨[], [⟨[], [⟨b!"0", b!"0", b!"0", b!"1"⟩], [], [], [Obj.Group.default, ⟨b!"a"⟩],
      [Obj.SmoothingGroup.default, ⟨3⟩], [.Point (.V 0), .Point (.V 0)], [⟨0, [0], 0⟩, ⟨1, [1], 1⟩], [⟨none, [0, 1]⟩]⟩]⟩ := by
  decide +kernel

/-- The default object can be displayed. -/
example : (Obj.Object.default : Obj.Object F64).display debug = some
    (b!"Object {\n    name: \n    vertex set:\n        data: []\n        length: 0\n" ++
     b!"    texture vertex set:\n        data: []\n        length: 0\n    normal vertex set:\n        data: []\n        length: 0\n" ++
     b!"    group set:\n        data: []\n        length: 0\n    smoothing group set:\n        data: []\n        length: 0\n" ++
     b!"    element set:\n        data: []\n        length: 0\n}}\n") := by decide +kernel

end Verif.Props
