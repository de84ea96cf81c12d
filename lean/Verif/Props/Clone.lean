import Verif.Model.Clone
import Verif.Props.Debug
import Verif.Props.Compare
import Verif.Model.Float
import Verif.Props.Samples

/-!
# Property C106: copies are the values they copy
-/

namespace Verif.Props

open Verif Verif.Spec Verif.Debug

theorem clone_vec {α : Type} {f : α → α} (h : ∀ a, f a = a) (l : List α) : Clone.vec f l = l := by
  induction l with
  | nil => rfl
  | cons a l ih => rw [Clone.vec, h, ih]

theorem clone_string (s : Bytes) : Clone.string s = s := clone_vec (fun _ => rfl) s

theorem clone_option {α : Type} {f : α → α} (h : ∀ a, f a = a) (o : Option α) : Clone.option f o = o := by
  cases o with
  | none => rfl
  | some a => rw [Clone.option, h]

theorem clone_lexer (s : PeekableLexer) : s.clone = s := by
  obtain ⟨i, c⟩ := s
  simp only [PeekableLexer.clone, clone_option (clone_option fun _ : Tok => rfl), Lexer.clone]

theorem clone_entry (s : Obj.ShapeEntry) : s.clone = s := by
  simp only [Obj.ShapeEntry.clone, clone_vec fun _ : Nat => rfl]

theorem clone_group (s : Obj.Group) : s.clone = s := by
  simp only [Obj.Group.clone, clone_string]

theorem clone_geometry (s : Obj.Geometry) : s.clone = s := by
  simp only [Obj.Geometry.clone, clone_option clone_string, clone_vec fun _ : Nat => rfl]

theorem clone_object {F : Type} (s : Obj.Object F) : s.clone = s := by
  simp only [Obj.Object.clone, clone_string, clone_vec clone_group, clone_vec clone_entry, clone_vec clone_geometry,
    clone_vec fun s : Obj.Vertex F => show s.clone = s from rfl,
    clone_vec fun s : Obj.TextureVertex F => show s.clone = s from rfl,
    clone_vec fun s : Obj.NormalVertex F => show s.clone = s from rfl,
    clone_vec fun s : Obj.SmoothingGroup => show s.clone = s from rfl,
    clone_vec fun s : Obj.Element => show s.clone = s from rfl]

theorem clone_material {F : Type} (s : Mtl.Material F) : s.clone = s := by
  simp only [Mtl.Material.clone, clone_string, clone_option clone_string, Mtl.Color.clone, Mtl.IlluminationModel.clone,
    clone_option fun _ : F => rfl]

/-- **C106** The copy of a set of objects, of a corner of an element or of a shape is the same in every field, every bit of
every number included. -/
theorem C106_obj {F : Type} (r : Obj.ObjectSet F) (t : Obj.VTNTriple F) (s : Obj.Shape) :
    r.clone = r ∧ t.clone = t ∧ s.clone = s := by
  refine ⟨?_, by cases t <;> rfl, ?_⟩
  · simp only [Obj.ObjectSet.clone, clone_vec clone_string, clone_vec clone_object]
  · simp only [Obj.Shape.clone, Obj.Element.clone, clone_vec clone_group,
      clone_vec fun s : Obj.SmoothingGroup => show s.clone = s from rfl]

/-- **C106** The copy of a set of materials is the same in every field. -/
theorem C106_mtl {F : Type} (r : Mtl.MaterialSet F) : r.clone = r := by
  simp only [Mtl.MaterialSet.clone, clone_vec clone_material]

/-- **C106** The copy of an error of either parser is the same error. -/
theorem C106_errors (a : ParseError Obj.ErrorKind) (b : ParseError Mtl.ErrorKind) :
    a.clone Obj.ErrorKind.clone = a ∧ b.clone Mtl.ErrorKind.clone = b := by
  refine ⟨?_, ?_⟩
  · obtain ⟨l, k, m⟩ := a
    simp only [ParseError.clone, clone_string]
    cases k <;> rfl
  · simp only [ParseError.clone, clone_string, Mtl.ErrorKind.clone]

/-- **C106** A copy of a result of the OBJ parser compares equal (`==`) to the result exactly if none of the numbers
of the text is NaN. -/
theorem C106_equal_obj {F : Type} [FloatSem F] [FloatEq F] [IeeeEq F] {cfg : Obj.Cfg} {input : Bytes}
    (hlen : input.length < 2 ^ 63) {r : Obj.ObjectSet F} (h : Obj.parse cfg input = .ok r)
    {file : Obj.FileAst} (hf : Obj.FileOk cfg (tokens input) file) :
    r.clone.eq r = true ↔ ∀ o ∈ file.objects, ∀ it ∈ o.items, ∀ t ∈ numberWords it, ¬ NanToken t := by
  rw [(C106_obj r (.V ⟨FloatSem.zero, FloatSem.zero, FloatSem.zero, FloatSem.zero⟩) ⟨.Point (.V 0), [], []⟩).1]
  exact C73_nan_obj hlen h hf

/-- **C106** A copy of a set of materials compares equal (`==`) to it exactly if each of its numbers does to itself. -/
theorem C106_equal_mtl {F : Type} [FloatEq F] (r : Mtl.MaterialSet F) :
    r.clone.eq r = true ↔ ∀ x ∈ materialsNumbers r, FloatEq.feq x x = true := by
  rw [C106_mtl, C73_self_mtl]

/-- **C106** A copy of a parser, taken at any time, gives the same result as the parser, and is left in the same
state; and the copy of a lexer gives the same tokens, one looked at ahead included. -/
theorem C106_parser {F : Type} [FloatSem F] (cfg : Obj.Cfg) (fuel : Nat) (p : PState PeekableLexer) :
    (Obj.parse_objset cfg fuel (Obj.Parser.clone p) : Out Obj.ErrorKind (Obj.ObjectSet F) × _) =
        Obj.parse_objset cfg fuel p ∧
      p.lexer.clone.peek = p.lexer.peek ∧ p.lexer.clone.next_token = p.lexer.next_token ∧
        p.lexer.inner.clone.next_token = p.lexer.inner.next_token := by
  have h := clone_lexer p.lexer
  refine ⟨?_, by rw [h], by rw [h], rfl⟩
  simp only [Obj.Parser.clone, h]

/-- **C106** Whatever the hasher: kinds of error that are equal leave it in the same state; and if the hasher keeps
different words apart, kinds that are different do not. -/
theorem C106_hash {H : Type} (write : H → Nat → H) (state : H) (a b : Mtl.ErrorKind) :
    (a = b → a.hash write state = b.hash write state) ∧
      ((∀ m n, write state m = write state n → m = n) → a.hash write state = b.hash write state → a = b) := by
  refine ⟨by rintro rfl; rfl, fun hw h => ?_⟩
  have := hw _ _ h
  revert this; cases a <;> cases b <;> decide

theorem code_shape_data (plain : Char → Bool) : Code (Obj.Shape.debug plain) (fun s => ∀ g ∈ s.groups, Utf8 g.name) := by
  refine ⟨fun {a b} ha hb => ?_, fun _ => ⟨_, _, rfl, by decide⟩⟩
  refine (link_struct (.cons (code_element.link trivial trivial)
    (.cons ((code_vec (code_group plain)).link ha hb)
    (.one ((code_vec code_smoothing).link (fun _ _ => trivial) (fun _ _ => trivial)))))).imp ?_
  obtain ⟨⟩ := a; obtain ⟨⟩ := b
  rintro ⟨rfl, rfl, rfl⟩; rfl

/-- **C106** Shapes with the same `Debug` text are the same. -/
theorem C106_shape_debug (plain : Char → Bool) (a b : Obj.Shape) (ha : ∀ g ∈ a.groups, Utf8 g.name)
    (hb : ∀ g ∈ b.groups, Utf8 g.name) (h : a.debug plain = b.debug plain) : a = b :=
  (code_shape_data plain).injective ha hb h

/-! ## Instances -/

/-- A copy of a vertex with a NaN is the same but does not compare equal. -/
example : (Obj.ObjectSet.mk [] [⟨[], [⟨F64.nan, F64.nan, F64.nan, F64.nan⟩], [], [], [], [], [], [], []⟩]).clone.eq
    (Obj.ObjectSet.mk [] [⟨[], [⟨F64.nan, F64.nan, F64.nan, F64.nan⟩], [], [], [], [], [], [], []⟩]) = false := by
  decide +kernel

/-- The parser behind the first token; the copy still has the token that was looked at. -/
example : ((Obj.Parser.clone ⟨1, ((PeekableLexer.new (Lexer.new b!"v 1 2")).next_token.2.peek).2⟩).lexer.next_token).1 =
    some b!"1" := by decide +kernel

/-- A hasher that keeps all the words it is given. -/
example : Mtl.ErrorKind.ExpectedFloat.hash (fun (s : List Nat) n => s ++ [n]) [9] = [9, 2] := by decide +kernel

example : (Obj.Shape.mk (.Point (.V 3)) [⟨b!"hull"⟩] [⟨0⟩, ⟨7⟩]).debug printable =
    c!"Shape { element: Point(V(3)), groups: [Group(\"hull\")], smoothing_groups: [SmoothingGroup(0), SmoothingGroup(7)] }" := by
  decide +kernel

end Verif.Props
