import Verif.Proofs.Layout
import Verif.Props.Pretty

/-!
# Property C107: the indentation of `{:#?}` texts
-/

namespace Verif.Props

open Verif Verif.Spec Verif.Spec.Layout
open Verif.Debug hiding struct tuple vec option
open Verif.Pretty

theorem laid_word {v : Text} (h : v ≠ []) (h' : ∀ c ∈ v, c ≠ '\n' ∧ c ≠ ' ' ∧ c ∉ closing) : Laid v := by
  cases v with
  | nil => exact absurd rfl h
  | cons c r =>
    exact .inl ⟨⟨c, r, rfl, (h' c List.mem_cons_self).2⟩, fun hn => (h' _ hn).1 rfl⟩

theorem laid_ascii {a : Bytes} (h : a ≠ []) (h' : ∀ c ∈ a, c = 43 ∨ c = 45 ∨ c = 46 ∨ (48 ≤ c ∧ c ≤ 57) ∨ (65 ≤ c ∧ c ≤ 90) ∨
    (97 ≤ c ∧ c ≤ 122)) : Laid (ascii a) := by
  refine laid_word (by simpa [ascii] using h) fun c hc => ?_
  obtain ⟨x, hx, rfl⟩ := List.mem_map.mp hc
  have key : ∀ k : Char, Char.ofNat x.toNat = k → x.toNat = k.toNat := fun k e => by rw [← e, ofNat_byte]
  have no : ∀ k : UInt8, x.toNat = k.toNat → k ∈ [10, 32, 125, 41, 93] → False := fun k e hk => by
    obtain rfl : x = k := UInt8.toNat_inj.mp e
    have := h' x hx
    revert hk this
    simp only [List.mem_cons, List.not_mem_nil, or_false]
    rintro (rfl | rfl | rfl | rfl | rfl) <;> decide
  refine ⟨fun e => no 10 (key _ e) (by decide), fun e => no 32 (key _ e) (by decide), fun e => ?_⟩
  simp only [closing, List.mem_cons, List.not_mem_nil, or_false] at e
  rcases e with e | e | e
  · exact no 125 (key _ e) (by decide)
  · exact no 41 (key _ e) (by decide)
  · exact no 93 (key _ e) (by decide)

theorem laid_usize (n : Nat) : Laid (usize n) := by
  obtain ⟨h1, h2, -⟩ := showNat_spec n
  refine laid_ascii h1 fun c hc => ?_
  have := h2 c hc
  simp only [isDigit, decide_eq_true_eq] at this
  exact .inr (.inr (.inr (.inl ⟨UInt8.le_iff_toNat_le.mpr this.1, UInt8.le_iff_toNat_le.mpr this.2⟩)))

theorem hex_line : ∀ a : Nat, '\n' ∉ Nat.toDigits 16 a := by
  have digit : ∀ a < 16, '\n' ≠ a.digitChar := by decide +kernel
  intro a
  induction a using Nat.strong_induction_on with
  | _ a ih =>
    rw [Nat.toDigits_eq_if (by decide)]
    split
    · rename_i h
      simp [digit _ h]
    · simp only [List.mem_append, List.mem_singleton, not_or]
      exact ⟨ih _ (by omega), digit _ (Nat.mod_lt _ (by decide))⟩

theorem escape_line (plain : Char → Bool) (c : Char) : '\n' ∉ escape plain c := by
  unfold escape
  repeat' split
  all_goals first | decide | skip
  · rename_i h _ _ _; simpa using fun e => h e.symm
  · simp [hex_line]

theorem laid_string (plain : Char → Bool) (b : Bytes) : Laid (string plain b) := by
  refine .inl ⟨⟨'"', _, rfl, by decide, by decide⟩, ?_⟩
  simp [string, quoted, escape_line]

section
variable {F : Type} [FloatSem F] [FloatDebug F] [LawfulDebug F]

theorem laid_float (x : F) : Laid (Debug.float x) := by
  have hf := LawfulDebug.isFloat_debug x
  refine laid_ascii ?_ (float_bytes (isFloat_iff.mp hf))
  intro e
  rw [e] at hf
  exact absurd hf (by decide)

/-- Reduces the claim about a struct to its fields. -/
macro "fields" : tactic => `(tactic| (
  refine block_struct ⟨_, _, rfl, by decide, by decide⟩ (by decide) ?_
  simp only [List.forall_mem_cons, List.not_mem_nil, false_imp_iff, implies_true, and_true]
  and_intros <;> first | exact ⟨_, _, rfl, by decide, by decide⟩ | decide | skip))

/-- Reduces the claim about a tuple to its fields. -/
macro "values" : tactic => `(tactic| (
  refine block_tuple ⟨_, _, rfl, by decide, by decide⟩ (by decide) ?_
  simp only [List.forall_mem_cons, List.not_mem_nil, false_imp_iff, implies_true, and_true]
  and_intros))

theorem block_vertex (s : Obj.Vertex F) : Block s.pretty := by
  fields <;> exact laid_float _

theorem block_texture (s : Obj.TextureVertex F) : Block s.pretty := by
  fields <;> exact laid_float _

theorem block_normal (s : Obj.NormalVertex F) : Block s.pretty := by
  fields <;> exact laid_float _

theorem block_color (s : Mtl.Color F) : Block s.pretty := by
  fields <;> exact laid_float _

theorem block_triple (s : Obj.VTNTriple F) : Block s.pretty := by
  cases s <;> values <;> first | exact .inr (block_vertex _) | exact .inr (block_texture _) | exact .inr (block_normal _)

end

theorem block_index (s : Obj.VTNIndex) : Block s.pretty := by
  cases s <;> values <;> exact laid_usize _

theorem block_element (s : Obj.Element) : Block s.pretty := by
  cases s <;> values <;> exact .inr (block_index _)

theorem block_group (plain : Char → Bool) (s : Obj.Group) : Block (s.pretty plain) := by
  values; exact laid_string _ _

theorem block_smoothing (s : Obj.SmoothingGroup) : Block s.pretty := by
  values; exact laid_usize _

theorem block_entry (s : Obj.ShapeEntry) : Block s.pretty := by
  fields
  · exact laid_usize _
  · exact laid_vec fun _ _ => laid_usize _
  · exact laid_usize _

theorem block_shape (plain : Char → Bool) (s : Obj.Shape) : Block (s.pretty plain) := by
  fields
  · exact .inr (block_element _)
  · exact laid_vec fun _ _ => .inr (block_group plain _)
  · exact laid_vec fun _ _ => .inr (block_smoothing _)

theorem block_geometry (plain : Char → Bool) (s : Obj.Geometry) : Block (s.pretty plain) := by
  fields
  · exact laid_option fun _ _ => laid_string plain _
  · exact laid_vec fun _ _ => laid_usize _

theorem laid_kind (k : Obj.ErrorKind) : Laid k.debug := by
  cases k <;> exact laid_word (by decide) (by decide)

theorem laid_mtl_kind (k : Mtl.ErrorKind) : Laid k.debug := by
  cases k <;> exact laid_word (by decide) (by decide)

theorem laid_model (k : Mtl.IlluminationModel) : Laid k.debug := by
  cases k <;> exact laid_word (by decide) (by decide)

theorem block_error {K : Type} (plain : Char → Bool) {kind : K → Text} (h : ∀ k, Laid (kind k)) (s : ParseError K) :
    Block (s.pretty plain kind) := by
  fields
  · exact laid_usize _
  · exact h _
  · exact laid_string plain _

section
variable {F : Type} [FloatSem F] [FloatDebug F] [LawfulDebug F]

theorem block_object (plain : Char → Bool) (s : Obj.Object F) : Block (s.pretty plain) := by
  fields
  · exact laid_string plain _
  · exact laid_vec fun _ _ => .inr (block_vertex _)
  · exact laid_vec fun _ _ => .inr (block_texture _)
  · exact laid_vec fun _ _ => .inr (block_normal _)
  · exact laid_vec fun _ _ => .inr (block_group plain _)
  · exact laid_vec fun _ _ => .inr (block_smoothing _)
  · exact laid_vec fun _ _ => .inr (block_element _)
  · exact laid_vec fun _ _ => .inr (block_entry _)
  · exact laid_vec fun _ _ => .inr (block_geometry plain _)

theorem block_material (plain : Char → Bool) (s : Mtl.Material F) : Block (s.pretty plain) := by
  fields <;> first | exact laid_string plain _ | exact .inr (block_color _) | exact laid_float _ | exact laid_model _ |
    exact laid_option fun _ _ => laid_float _ | exact laid_option fun _ _ => laid_string plain _

/-- **C107** In the `{:#?}` text of any value of the OBJ parser every line is indented by four spaces for every block it is
in, whatever the names in it and whatever characters are printed as they are. -/
theorem C107_layout_obj (plain : Char → Bool) :
    (∀ r : Obj.ObjectSet F, ∃ l, r.pretty plain ++ ['\n'] = unlines l ∧ Indented 0 l 0) ∧
      (∀ o : Obj.Object F, ∃ l, o.pretty plain ++ ['\n'] = unlines l ∧ Indented 0 l 0) ∧
      (∀ t : Obj.VTNTriple F, ∃ l, t.pretty ++ ['\n'] = unlines l ∧ Indented 0 l 0) ∧
      (∀ e : Obj.Element, ∃ l, e.pretty ++ ['\n'] = unlines l ∧ Indented 0 l 0) ∧
      (∀ s : Obj.Shape, ∃ l, s.pretty plain ++ ['\n'] = unlines l ∧ Indented 0 l 0) ∧
      ∀ e : ParseError Obj.ErrorKind, ∃ l, e.pretty plain Obj.ErrorKind.debug ++ ['\n'] = unlines l ∧ Indented 0 l 0 := by
  refine ⟨fun r => Block.lines ?_, fun o => (block_object plain o).lines, fun t => (block_triple t).lines,
    fun e => (block_element e).lines, fun s => (block_shape plain s).lines, fun e => (block_error plain laid_kind e).lines⟩
  fields
  · exact laid_vec fun _ _ => laid_string plain _
  · exact laid_vec fun _ _ => .inr (block_object plain _)

/-- **C107** The same for the values of the MTL parser. -/
theorem C107_layout_mtl (plain : Char → Bool) :
    (∀ r : Mtl.MaterialSet F, ∃ l, r.pretty plain ++ ['\n'] = unlines l ∧ Indented 0 l 0) ∧
      (∀ m : Mtl.Material F, ∃ l, m.pretty plain ++ ['\n'] = unlines l ∧ Indented 0 l 0) ∧
      ∀ e : ParseError Mtl.ErrorKind, ∃ l, e.pretty plain Mtl.ErrorKind.debug ++ ['\n'] = unlines l ∧ Indented 0 l 0 := by
  refine ⟨fun r => Block.lines ?_, fun m => (block_material plain m).lines, fun e => (block_error plain laid_mtl_kind e).lines⟩
  fields
  exact laid_vec fun _ _ => .inr (block_material plain _)

end

/-- The lines of a point. -/
example : Indented 0 [c!"Point(", c!"    V(", c!"        3,", c!"    ),", c!")"] 0 :=
  .opens (d := 0) (s := c!"Point") ⟨_, _, rfl, by decide, by decide⟩ (by decide) (by decide)
    (.opens (d := 1) (s := c!"V") ⟨_, _, rfl, by decide, by decide⟩ (by decide) (by decide)
      (.line (d := 2) (s := c!"3") ⟨_, _, rfl, by decide, by decide⟩ (by decide) (by decide) (by decide)
        (.closes (d := 1) (s := c!",") (by decide) (.inr rfl) (.closes (d := 0) (s := []) (by decide) (.inl rfl) .nil))))

example : (Obj.Element.Point (.V 3)).pretty ++ ['\n'] =
    unlines [c!"Point(", c!"    V(", c!"        3,", c!"    ),", c!")"] := by decide +kernel

end Verif.Props
