import Verif.Spec.Obj

/-!
# Writing OBJ files

The crate has no writer; this is the obvious one, one statement per line, words
separated by single spaces.  `ValidFile` says which abstract files it is meant for.
-/

namespace Verif.Spec.Obj

open Verif Verif.Obj

/-- A word: not empty, no blank, no end of line, no `#`. -/
def Word (w : Bytes) : Prop :=
  w ≠ [] ∧ ∀ c ∈ w, c ≠ 32 ∧ c ≠ 9 ∧ c ≠ 92 ∧ c ≠ 10 ∧ c ≠ 13 ∧ c ≠ 35

/-- A word or a line terminator. -/
def IsToken (t : Tok) : Prop := Word t ∨ t = [10] ∨ t = [13]

/-- A line of text. -/
def lineText (ws : List Bytes) : Bytes := List.intercalate [32] ws ++ [10]

/-- `v`, `v/vt`, `v//vn` or `v/vt/vn`. -/
def Ref.text (r : Ref) : Bytes :=
  match r.vt, r.vn with
  | none, none => showNat r.v
  | some t, none => showNat r.v ++ b!"/" ++ showNat t
  | none, some n => showNat r.v ++ b!"//" ++ showNat n
  | some t, some n => showNat r.v ++ b!"/" ++ showNat t ++ b!"/" ++ showNat n

/-- The words of a statement. -/
def Item.words : Item → List Bytes
  | .v x y z w => [b!"v", x, y, z] ++ w.toList
  | .vt a b c => [b!"vt", a] ++ b.toList ++ c.toList
  | .vn x y z => [b!"vn", x, y, z]
  | .g names => b!"g" :: names
  | .s n => [b!"s", showNat n]
  | .usemtl name => [b!"usemtl", name]
  | .p is => b!"p" :: is.map showNat
  | .l refs => b!"l" :: refs.map Ref.text
  | .f refs => b!"f" :: refs.map Ref.text

def itemsText (items : List Item) : Bytes := items.flatMap fun it => lineText it.words

/-- An object without a name has no `o` line. -/
def ObjAst.text (o : ObjAst) : Bytes :=
  (if o.name = [] then [] else lineText [b!"o", o.name]) ++ itemsText o.items

def FileAst.text (f : FileAst) : Bytes :=
  (if f.libs = [] then [] else lineText (b!"mtllib" :: f.libs)) ++ f.objects.flatMap ObjAst.text

/-! ## Which abstract files make sense -/

/-- The reference is to things defined in this object before. -/
def ValidRef (lo hi : Counts) (r : Ref) : Prop :=
  (lo.v < r.v ∧ r.v ≤ hi.v) ∧ (∀ t ∈ r.vt, lo.vt < t ∧ t ≤ hi.vt) ∧ ∀ n ∈ r.vn, lo.vn < n ∧ n ≤ hi.vn

/-- The numbers are numbers, the names are names, references are valid and uniform, and
there are enough of them. -/
def ValidItem (lo hi : Counts) : Item → Prop
  | .v x y z w => isFloat x = true ∧ isFloat y = true ∧ isFloat z = true ∧ ∀ w' ∈ w, isFloat w' = true
  | .vt u v w => isFloat u = true ∧ (∀ v' ∈ v, isFloat v' = true) ∧ (∀ w' ∈ w, isFloat w' = true) ∧
      (v = none → w = none)
  | .vn x y z => isFloat x = true ∧ isFloat y = true ∧ isFloat z = true
  | .g names => ∀ n ∈ names, IsToken n ∧ n ≠ nl
  | .s n => n ≤ usizeMax
  | .usemtl name => IsToken name
  | .p is => is ≠ [] ∧ ∀ k ∈ is, lo.v < k ∧ k ≤ hi.v
  | .l refs => 2 ≤ refs.length ∧ Uniform refs ∧ ∀ r ∈ refs, ValidRef lo hi r
  | .f refs => 3 ≤ refs.length ∧ Uniform refs ∧ ∀ r ∈ refs, ValidRef lo hi r

def ValidItems (lo : Counts) : Counts → List Item → Prop
  | _, [] => True
  | hi, it :: items => ValidItem lo hi it ∧ ValidItems lo (hi + it.counts) items

def ValidObjects : Counts → List ObjAst → Prop
  | _, [] => True
  | lo, o :: os => IsToken o.name ∧ ValidItems lo lo o.items ∧ ¬ Bare o.items ∧
      ValidObjects (lo + countsOf o.items) os

/-- Only the first object may be without a name. -/
def ValidFile (f : FileAst) : Prop :=
  (∀ n ∈ f.libs, IsToken n ∧ n ≠ nl) ∧
  match f.objects with
  | [] => True
  | o :: os => (o.name = [] ∨ IsToken o.name) ∧ ValidItems {} {} o.items ∧ ¬ Bare o.items ∧
      ValidObjects (countsOf o.items) os

end Verif.Spec.Obj
