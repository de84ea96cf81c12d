import Verif.Model.Width
import Verif.Model.Display

/-!
# The `Display` implementations on a target of any pointer width

Of `Model/Display.lean` only `x + 1` depends on the width of a pointer. Here are the functions that use it,
with the target as a parameter; they are otherwise those of `Model/Display.lean`.
-/

namespace Verif.Obj.Width

open Verif Verif.Obj

/-- `x + 1` for `x : usize` (as used in obj.rs:247-256). -/
def incr (tgt : Target) (x : Nat) : Option Nat :=
  if x < usizeMaxAt tgt.bits then some (x + 1) else if tgt.overflow_checks then none else some 0

/-- `impl Display for VTNIndex` (obj.rs:239-260). -/
def displayIndex (tgt : Target) : VTNIndex → Option Bytes
  | .V v => do
    return showNat (← incr tgt v)
  | .VT v vt => do
    return showNat (← incr tgt v) ++ b!"/" ++ showNat (← incr tgt vt)
  | .VN v vn => do
    return showNat (← incr tgt v) ++ b!"//" ++ showNat (← incr tgt vn)
  | .VTN v vt vn => do
    return showNat (← incr tgt v) ++ b!"/" ++ showNat (← incr tgt vt) ++ b!"/" ++ showNat (← incr tgt vn)

/-- `impl Display for Element` (obj.rs:285-299). -/
def displayElement (tgt : Target) : Element → Option Bytes
  | .Point vtn => do
    return b!"p  " ++ (← displayIndex tgt vtn)
  | .Line vtn1 vtn2 => do
    return b!"l  " ++ (← displayIndex tgt vtn1) ++ b!"  " ++ (← displayIndex tgt vtn2)
  | .Face vtn1 vtn2 vtn3 => do
    return b!"f  " ++ (← displayIndex tgt vtn1) ++ b!"  " ++ (← displayIndex tgt vtn2) ++ b!"  " ++
      (← displayIndex tgt vtn3)

section
variable {F : Type} [FloatShow F]

/-- `DisplayObjectCompositor::compose` (obj.rs:543-556) and `impl Display for Object` (obj.rs:559-564). -/
def displayObject (tgt : Target) (object : Object F) : Option Bytes := do
  let string := b!"Object {\n"
  let string := string ++ b!"    name: " ++ object.name ++ b!"\n"
  let string := string ++ (← compose_set (some ∘ Vertex.display) object.vertex_set b!"vertex")
  let string := string ++
    (← compose_set (some ∘ TextureVertex.display) object.texture_vertex_set b!"texture vertex")
  let string := string ++
    (← compose_set (some ∘ NormalVertex.display) object.normal_vertex_set b!"normal vertex")
  let string := string ++ (← compose_set (some ∘ Group.display) object.group_set b!"group")
  let string := string ++
    (← compose_set (some ∘ SmoothingGroup.display) object.smoothing_group_set b!"smoothing group")
  let string := string ++ (← compose_set (displayElement tgt) object.element_set b!"element")
  return string ++ b!"}}\n"

/-- The `for object in self.objects.iter()` loop of the following (obj.rs:581-584). -/
def displayAll (tgt : Target) : List (Object F) → Bytes → Option Bytes
  | [], string => some string
  | o :: os, string => do
    let string := string ++ (← displayObject tgt o)
    displayAll tgt os (string ++ b!"\n")

/-- `impl Display for ObjectSet` (obj.rs:576-590). -/
def displaySet (tgt : Target) (s : ObjectSet F) : Option Bytes := do
  let string ← displayAll tgt s.objects b!"ObjectSet {\n"
  return string ++ b!"}\n"

end

end Verif.Obj.Width
