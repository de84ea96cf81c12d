import Verif.Spec.Mtl
import Verif.Spec.Obj
import Verif.Proofs.Numbers

/-!
# The documented grammar

The grammars of `GRAMMAR.md`, one statement on each line, in the words of that file.  From
`Verif.Proofs.Numbers` only `Decimal` is used: what number a string of digits is.
Names are `String`s of letters and digits in `GRAMMAR.md:32`; here any word is a name, so that
file names with a dot are covered.

`lo` and `hi` are as in `Verif.Spec.Obj`: what the file has defined before the current object,
and so far.
-/

namespace Verif.Spec.Doc

open Verif

/-! ## Lexical elements -/

/-- `Digit` (`GRAMMAR.md:25`). -/
def Digit (c : UInt8) : Prop := 48 ≤ c ∧ c ≤ 57

/-- `Digits ::= [Digit]+` (`GRAMMAR.md:33`). -/
def Digits (t : Bytes) : Prop := t ≠ [] ∧ ∀ c ∈ t, Digit c

/-- `Number ::= ['-'] Digits` (`GRAMMAR.md:36`). -/
def Number (t : Bytes) : Prop := Digits t ∨ ∃ ds, t = b!"-" ++ ds ∧ Digits ds

/-- `Float ::= Number '.' Digits` (`GRAMMAR.md:37`). -/
def Float (t : Bytes) : Prop := ∃ n ds, t = n ++ b!"." ++ ds ∧ Number n ∧ Digits ds

/-- A `Number` without sign that counts something defined earlier in this object. -/
def Index (lo hi : Nat) (t : Bytes) (k : Nat) : Prop := Decimal t k ∧ lo < k ∧ k ≤ hi

/-- `V`, `VN`, `VT`, `VTN` (`GRAMMAR.md:43-46`). -/
inductive Reference (lo hi : Obj.Counts) : Bytes → Obj.Ref → Prop
  | v {a v} : Index lo.v hi.v a v → Reference lo hi a ⟨v, none, none⟩
  | vn {a c v n} : Index lo.v hi.v a v → Index lo.vn hi.vn c n →
      Reference lo hi (a ++ b!"//" ++ c) ⟨v, none, some n⟩
  | vt {a b v t} : Index lo.v hi.v a v → Index lo.vt hi.vt b t →
      Reference lo hi (a ++ b!"/" ++ b) ⟨v, some t, none⟩
  | vtn {a b c v t n} : Index lo.v hi.v a v → Index lo.vt hi.vt b t → Index lo.vn hi.vn c n →
      Reference lo hi (a ++ b!"/" ++ b ++ b!"/" ++ c) ⟨v, some t, some n⟩

/-! ## OBJ files -/

/-- A line with one statement: `Vertex`, `TextureVertex`, `NormalVertex`, `Point`, `Line`,
`Face`, `GroupName`, `SmoothingGroup` (`GRAMMAR.md:38-55`), and `usemtl`, which `GRAMMAR.md`
does not mention.  `ParameterVertex` is left out.  Lines with two references, and with
references to normals, are allowed although `GRAMMAR.md:48` has neither. -/
inductive ObjLine (lo hi : Obj.Counts) : List Bytes → Obj.Item → Prop
  | v3 {x y z} : Float x → Float y → Float z → ObjLine lo hi [b!"v", x, y, z] (.v x y z none)
  | v4 {x y z w} : Float x → Float y → Float z → Float w →
      ObjLine lo hi [b!"v", x, y, z, w] (.v x y z (some w))
  | vt1 {u} : Float u → ObjLine lo hi [b!"vt", u] (.vt u none none)
  | vt2 {u v} : Float u → Float v → ObjLine lo hi [b!"vt", u, v] (.vt u (some v) none)
  | vt3 {u v w} : Float u → Float v → Float w →
      ObjLine lo hi [b!"vt", u, v, w] (.vt u (some v) (some w))
  | vn {x y z} : Float x → Float y → Float z → ObjLine lo hi [b!"vn", x, y, z] (.vn x y z)
  | p {ts is} : ts ≠ [] → List.Forall₂ (Index lo.v hi.v) ts is → ObjLine lo hi (b!"p" :: ts) (.p is)
  | l {ts refs} : 2 ≤ ts.length → List.Forall₂ (Reference lo hi) ts refs → Obj.Uniform refs →
      ObjLine lo hi (b!"l" :: ts) (.l refs)
  | f {ts refs} : 3 ≤ ts.length → List.Forall₂ (Reference lo hi) ts refs → Obj.Uniform refs →
      ObjLine lo hi (b!"f" :: ts) (.f refs)
  | g {names} : ObjLine lo hi (b!"g" :: names) (.g names)
  | off : ObjLine lo hi [b!"s", b!"off"] (.s 0)
  | s {t n} : Decimal t n → n < 2 ^ 64 → ObjLine lo hi [b!"s", t] (.s n)
  | usemtl {name} : ObjLine lo hi [b!"usemtl", name] (.usemtl name)

/-- The lines of `ObjectBody` (`GRAMMAR.md:59`). -/
inductive ObjBody (lo : Obj.Counts) : Obj.Counts → List (List Bytes) → List Obj.Item → Prop
  | done {hi} : ObjBody lo hi [] []
  | blank {hi ls items} : ObjBody lo hi ls items → ObjBody lo hi ([] :: ls) items
  | line {hi l it ls items} : ObjLine lo hi l it → ObjBody lo (hi + it.counts) ls items →
      ObjBody lo hi (l :: ls) (it :: items)

/-- The lines of `[Object]*` (`GRAMMAR.md:58-61`); every object has an element or a material. -/
inductive NamedObjects : Obj.Counts → List (List Bytes) → List Obj.ObjAst → Prop
  | done {lo} : NamedObjects lo [] []
  | obj {lo name body items rest objs} : ObjBody lo lo body items →
      (∃ it ∈ items, it.isElement = true ∨ it.isUsemtl = true) →
      NamedObjects (lo + Obj.countsOf items) rest objs →
      NamedObjects lo ([b!"o", name] :: (body ++ rest)) (⟨name, items⟩ :: objs)

/-- `ObjectSet ::= [Object | ObjectBody] [Object]*` (`GRAMMAR.md:61`). -/
inductive ObjectSet : List (List Bytes) → List Obj.ObjAst → Prop
  | named {ls objs} : NamedObjects {} ls objs → ObjectSet ls objs
  | body {body items rest objs} : ObjBody {} {} body items →
      (∃ it ∈ items, it.isElement = true ∨ it.isUsemtl = true) →
      NamedObjects (Obj.countsOf items) rest objs → ObjectSet (body ++ rest) (⟨[], items⟩ :: objs)

/-- Blank lines, comments and `mtllib` lines (which `GRAMMAR.md` does not mention), then an
`ObjectSet`. -/
inductive ObjFile : List (List Bytes) → Obj.FileAst → Prop
  | blank {ls file} : ObjFile ls file → ObjFile ([] :: ls) file
  | mtllib {names ls libs objs} : ObjFile ls ⟨libs, objs⟩ →
      ObjFile ((b!"mtllib" :: names) :: ls) ⟨names ++ libs, objs⟩
  | objects {ls objs} : ObjectSet ls objs → ObjFile ls ⟨[], objs⟩

/-! ## MTL files -/

/-- The lines of `MaterialProperties` (`GRAMMAR.md:109-148`), without `TransmissionFilter`, with
the three illumination models the crate knows. -/
inductive MtlLine : List Bytes → Mtl.Item → Prop
  | color {s : Mtl.ColorSlot} {r g b} : Float r → Float g → Float b →
      MtlLine [s.tag, r, g, b] (.color s r g b)
  | num {s : Mtl.NumSlot} {x} : Float x → MtlLine [s.tag, x] (.num s x)
  | illum {t model} : Decimal t (Mtl.illumNumber model) → MtlLine [b!"illum", t] (.illum model)
  | map {s : Mtl.MapSlot} {tag name} : tag ∈ s.tags → MtlLine [tag, name] (.map s name)

/-- The lines of `MaterialProperties`, in any order, and repeated at will (`GRAMMAR.md` allows
each at most once). -/
inductive MtlBody : List (List Bytes) → List Mtl.Item → Prop
  | done : MtlBody [] []
  | blank {ls items} : MtlBody ls items → MtlBody ([] :: ls) items
  | line {l it ls items} : MtlLine l it → MtlBody ls items → MtlBody (l :: ls) (it :: items)

/-- The lines of `[Material]*`, `Material ::= MtlName MaterialProperties` (`GRAMMAR.md:149`). -/
inductive Materials : List (List Bytes) → List Mtl.MatAst → Prop
  | done : Materials [] []
  | mat {name body items rest mats} : MtlBody body items → Materials rest mats →
      Materials ([b!"newmtl", name] :: (body ++ rest)) (⟨name, items⟩ :: mats)

/-- Blank lines and comments, then a `MtlSet` (`GRAMMAR.md:150`). -/
inductive MtlFile : List (List Bytes) → List Mtl.MatAst → Prop
  | blank {ls mats} : MtlFile ls mats → MtlFile ([] :: ls) mats
  | mats {ls mats} : Materials ls mats → MtlFile ls mats

end Verif.Spec.Doc
