import Verif.Spec.Obj

/-!
# What is in force at a statement

Each function looks backwards from a statement: its argument lists the earlier
statements of the object, the most recent first.
-/

namespace Verif.Spec.Obj

open Verif Verif.Obj

/-- The names on a `g` statement. -/
def Item.names : Item → List Bytes
  | .g names => names
  | _ => []

/-- The groups in force: those named on the most recent `g`, or `default`.  A `g` without
names counts only when the object already has a group (which an element statement
also brings about). -/
def groupsInForce : List Item → List Bytes
  | [] => [b!"default"]
  | .g names :: earlier =>
    if names = [] ∧ ∀ it ∈ earlier, it.isElement = false ∧ it.names = [] then
      [b!"default"]
    else names
  | _ :: earlier => groupsInForce earlier

/-- The smoothing group in force: that of the most recent `s`, or 0. -/
def smoothingInForce : List Item → Nat
  | [] => 0
  | .s n :: _ => n
  | _ :: earlier => smoothingInForce earlier

/-- The material in force: that of the most recent `usemtl`, if any. -/
def materialInForce : List Item → Option Bytes
  | [] => none
  | .usemtl name :: _ => some name
  | _ :: earlier => materialInForce earlier

/-- How many elements a statement contributes. -/
def Item.size : Item → Nat
  | .p is => is.length
  | .l refs => refs.length - 1
  | .f refs => refs.length - 2
  | _ => 0

/-- How many elements the statements contribute. -/
def sizes (items : List Item) : Nat := (items.map Item.size).sum

section
variable {F : Type} [FloatSem F]

/-- The vertex of a `v` statement; the default of `w` is 1. -/
def Item.vertex? : Item → Option (Vertex F)
  | .v x y z w => some ⟨FloatSem.value x, FloatSem.value y, FloatSem.value z,
      match w with | some t => FloatSem.value t | none => FloatSem.one⟩
  | _ => none

/-- The texture vertex of a `vt` statement; the defaults are 0. -/
def Item.texture? : Item → Option (TextureVertex F)
  | .vt a b c => some ⟨FloatSem.value a,
      match b with | some t => FloatSem.value t | none => FloatSem.zero,
      match c with | some t => FloatSem.value t | none => FloatSem.zero⟩
  | _ => none

/-- The normal of a `vn` statement. -/
def Item.normal? : Item → Option (NormalVertex F)
  | .vn x y z => some ⟨FloatSem.value x, FloatSem.value y, FloatSem.value z⟩
  | _ => none

end

/-- A reference to something defined in this object. -/
def Ref.Valid (lo hi : Counts) (r : Ref) : Prop :=
  (lo.v < r.v ∧ r.v ≤ hi.v) ∧
  (∀ t ∈ r.vt, lo.vt < t ∧ t ≤ hi.vt) ∧
  (∀ n ∈ r.vn, lo.vn < n ∧ n ≤ hi.vn)

/-- The references of a statement are valid, uniform and enough. -/
def Item.Valid (lo hi : Counts) : Item → Prop
  | .p is => is ≠ [] ∧ ∀ k ∈ is, lo.v < k ∧ k ≤ hi.v
  | .l refs => 2 ≤ refs.length ∧ Uniform refs ∧ ∀ r ∈ refs, r.Valid lo hi
  | .f refs => 3 ≤ refs.length ∧ Uniform refs ∧ ∀ r ∈ refs, r.Valid lo hi
  | _ => True

/-- All references point to what has been defined so far in this object. -/
def ItemsValid (lo : Counts) : Counts → List Item → Prop
  | _, [] => True
  | hi, it :: items => it.Valid lo hi ∧ ItemsValid lo (hi + it.counts) items

end Verif.Spec.Obj
