import Verif.Model.Obj
import Verif.Model.Mtl

/-!
# Model of the `Display` implementations

A function of this file returns the text written to the formatter, or `none` if
the Rust code panics (only `v + 1` on `usize::MAX` can, in a build with overflow
checks).  Writing to the formatter is assumed to succeed.
-/

namespace Verif

/-- `format!("{}", x)` for `x : f64`, which is not interpreted. -/
class FloatShow (F : Type) where
  display : F → Bytes

namespace Obj

/-- `x + 1` for `x : usize` (as used in obj.rs:247-256). -/
def incr (cfg : Cfg) (x : Nat) : Option Nat :=
  if x < usizeMax then some (x + 1) else if cfg.overflow_checks then none else some 0

section
variable {F : Type} [FloatShow F]

/-- `impl Display for Vertex` (obj.rs:132-136). -/
def Vertex.display (s : Vertex F) : Bytes :=
  b!"v  " ++ FloatShow.display s.x ++ b!"  " ++ FloatShow.display s.y ++ b!"  " ++
    FloatShow.display s.z ++ b!"  " ++ FloatShow.display s.w

/-- `impl Display for TextureVertex` (obj.rs:150-154). -/
def TextureVertex.display (s : TextureVertex F) : Bytes :=
  b!"vt  " ++ FloatShow.display s.u ++ b!"  " ++ FloatShow.display s.v ++ b!"  " ++
    FloatShow.display s.w

/-- `impl Display for NormalVertex` (obj.rs:168-172). -/
def NormalVertex.display (s : NormalVertex F) : Bytes :=
  b!"vn  " ++ FloatShow.display s.x ++ b!"  " ++ FloatShow.display s.y ++ b!"  " ++
    FloatShow.display s.z

end

/-- `impl Display for VTNIndex` (obj.rs:239-260). -/
def VTNIndex.display (cfg : Cfg) : VTNIndex → Option Bytes
  | .V v => do
    return showNat (← incr cfg v)
  | .VT v vt => do
    return showNat (← incr cfg v) ++ b!"/" ++ showNat (← incr cfg vt)
  | .VN v vn => do
    return showNat (← incr cfg v) ++ b!"//" ++ showNat (← incr cfg vn)
  | .VTN v vt vn => do
    return showNat (← incr cfg v) ++ b!"/" ++ showNat (← incr cfg vt) ++ b!"/" ++ showNat (← incr cfg vn)

/-- `impl Display for Element` (obj.rs:285-299). -/
def Element.display (cfg : Cfg) : Element → Option Bytes
  | .Point vtn => do
    return b!"p  " ++ (← vtn.display cfg)
  | .Line vtn1 vtn2 => do
    return b!"l  " ++ (← vtn1.display cfg) ++ b!"  " ++ (← vtn2.display cfg)
  | .Face vtn1 vtn2 vtn3 => do
    return b!"f  " ++ (← vtn1.display cfg) ++ b!"  " ++ (← vtn2.display cfg) ++ b!"  " ++
      (← vtn3.display cfg)

/-- `impl Display for Group` (obj.rs:308-312). -/
def Group.display (s : Group) : Bytes := s.name

/-- `impl Display for SmoothingGroup` (obj.rs:326-334). -/
def SmoothingGroup.display (s : SmoothingGroup) : Bytes :=
  if s.number = 0 then b!"off" else showNat s.number

/-- `DisplayObjectCompositor::compose_set` (obj.rs:531-541); `show'` is the `Display` of `T`. -/
def compose_set {T : Type} (show' : T → Option Bytes) (set : List T) (name : Bytes) : Option Bytes := do
  let string := b!"    " ++ name ++ b!" set:\n"
  let string ←
    (match set with
    | [] => some (string ++ b!"        data: []\n")
    | a :: r => do
      return string ++ b!"        data: [(" ++ (← show' a) ++ b!") ... (" ++
        (← show' ((a :: r).getLast (by simp))) ++ b!")]\n" : Option Bytes)
  return string ++ b!"        length: " ++ showNat set.length ++ b!"\n"

section
variable {F : Type} [FloatShow F]

/-- `DisplayObjectCompositor::compose` (obj.rs:543-556). -/
def compose (cfg : Cfg) (object : Object F) : Option Bytes := do
  let string := b!"Object {\n"
  let string := string ++ b!"    name: " ++ object.name ++ b!"\n"
  let string := string ++ (← compose_set (some ∘ Vertex.display) object.vertex_set b!"vertex")
  let string := string ++
    (← compose_set (some ∘ TextureVertex.display) object.texture_vertex_set b!"texture vertex")
  let string := string ++
    (← compose_set (some ∘ NormalVertex.display) object.normal_vertex_set b!"normal vertex")
  let string := string ++ (← compose_set (some ∘ Group.display) object.group_set b!"group")
  let string := string ++
    (← compose_set (some ∘ SmoothingGroup.display) object.smoothing_group_set b!"smoothing group")
  let string := string ++ (← compose_set (Element.display cfg) object.element_set b!"element")
  return string ++ b!"}}\n"

/-- `impl Display for Object` (obj.rs:559-564). -/
def Object.display (cfg : Cfg) (s : Object F) : Option Bytes := compose cfg s

/-- The `for object in self.objects.iter()` loop of the following (obj.rs:581-584). -/
def compose_all (cfg : Cfg) : List (Object F) → Bytes → Option Bytes
  | [], string => some string
  | o :: os, string => do
    let string := string ++ (← compose cfg o)
    compose_all cfg os (string ++ b!"\n")

/-- `impl Display for ObjectSet` (obj.rs:576-590). -/
def ObjectSet.display (cfg : Cfg) (s : ObjectSet F) : Option Bytes := do
  let string ← compose_all cfg s.objects b!"ObjectSet {\n"
  return string ++ b!"}\n"

end

end Obj

/-- `impl Display for ParseError` (obj.rs:648-656, mtl.rs:260-268). -/
def ParseError.display {K : Type} (s : ParseError K) : Bytes :=
  b!"Parse error at line " ++ showNat s.line_number ++ b!": " ++ s.message

end Verif
