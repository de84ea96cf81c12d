import Verif.Model.Obj
import Verif.Model.Mtl
import Verif.Proofs.Sim

/-!
# Every method of the parsers keeps the line counter in step with the tokens it takes
-/

namespace Verif

/-- The parser has the tokens `toks` before it and stands at line `line`. -/
structure Before (s : PState PeekableLexer) (line : Nat) (toks : List Tok) : Prop where
  line : s.line_number = line
  toks : Holds s.lexer toks

/-- Called anywhere, the method takes tokens from the front, the line counter advances by the
number of newlines among them, and an error carries the line counter at that moment. -/
def Framed {K α : Type} (p : P PeekableLexer K α) : Prop :=
  ∀ s line toks, Before s line toks → ∃ used rest, toks = used ++ rest ∧
    Before (p s).2 (line + used.count nl) rest ∧
    ∀ e, (p s).1 = .err e → e.line_number = line + used.count nl

namespace Framed

variable {K α β : Type}

theorem still {p : P PeekableLexer K α} (h : ∀ s, (p s).2 = s) (he : ∀ s e, (p s).1 = .err e → e.line_number = s.line_number) :
    Framed p := fun s line toks hs => ⟨[], toks, rfl, by rw [h]; exact hs, fun e h => (he s e h).trans hs.line⟩

theorem pure (a : α) : Framed (Pure.pure a : P PeekableLexer K α) :=
  still (fun _ => rfl) (fun _ _ h => by cases h)

theorem error (k : K) (m : Bytes) : Framed (P.error k m : P PeekableLexer K α) :=
  still (fun _ => rfl) (fun _ _ h => by cases h; rfl)

theorem panic (x : PanicSite) : Framed (P.panic x : P PeekableLexer K α) :=
  still (fun _ => rfl) (fun _ _ h => by cases h)

theorem outOfFuel : Framed (P.outOfFuel : P PeekableLexer K α) :=
  still (fun _ => rfl) (fun _ _ h => by cases h)

theorem lift {o : Out K α} (h : ∀ e, o ≠ .err e) : Framed (P.lift o : P PeekableLexer K α) :=
  still (fun _ => rfl) (fun _ e he => absurd he (h e))

theorem peek_run {s line toks} (h : Before s line toks) : ∃ s', Before s' line toks ∧
    (P.peek : P PeekableLexer K _) s = (.ok toks.head?, s') := by
  have := holds_bisim.peek _ _ h.toks
  refine ⟨{ s with lexer := (TokStream.peek s.lexer).2 }, ⟨h.line, this.2⟩, ?_⟩
  show (Out.ok (TokStream.peek s.lexer).1, _) = _
  rw [this.1]; rfl

theorem next_run {s line toks} (h : Before s line toks) : ∃ s', Before s' (line + (toks.take 1).count nl) toks.tail ∧
    (P.next : P PeekableLexer K _) s = (.ok toks.head?, s') := by
  have := holds_bisim.next _ _ h.toks
  refine ⟨((P.next : P PeekableLexer K _) s).2, ⟨?_, this.2⟩, ?_⟩
  · show (match (TokStream.next s.lexer).1 with
      | some val => if val = nl then s.line_number + 1 else s.line_number
      | none => s.line_number) = _
    rw [this.1]
    cases toks with
    | nil => exact h.line
    | cons t toks =>
      show (if t = nl then s.line_number + 1 else s.line_number) = _
      rw [h.line]
      by_cases ht : t = nl
      · subst ht; simp
      · simp [ht]
  · exact congrArg (fun o => ((Out.ok o : Out K _), ((P.next : P PeekableLexer K _) s).2)) this.1

theorem peek : Framed (P.peek : P PeekableLexer K _) := by
  intro s line toks hs
  obtain ⟨s', h1, h2⟩ := peek_run (K := K) hs
  rw [h2]
  exact ⟨[], toks, rfl, h1, fun _ h => by cases h⟩

theorem next : Framed (P.next : P PeekableLexer K _) := by
  intro s line toks hs
  obtain ⟨s', h1, h2⟩ := next_run (K := K) hs
  rw [h2]
  exact ⟨toks.take 1, toks.tail, by cases toks <;> rfl, h1, fun _ h => by cases h⟩

theorem bind {p : P PeekableLexer K α} {f : α → P PeekableLexer K β} (hp : Framed p) (hf : ∀ a, Framed (f a)) :
    Framed (p >>= f) := by
  intro s line toks hs
  obtain ⟨u, r, rfl, h1, h2⟩ := hp s line toks hs
  show ∃ used rest, u ++ r = used ++ rest ∧ Before (P.bind p f _).2 _ _ ∧ ∀ e, (P.bind p f _).1 = _ → _
  simp only [P.bind]
  rcases hq : p s with ⟨o, s1⟩
  rw [hq] at h1 h2
  cases o with
  | ok a =>
    dsimp only at h1 ⊢
    obtain ⟨u', r', rfl, h1', h2'⟩ := hf a s1 (line + u.count nl) r h1
    refine ⟨u ++ u', r', by simp, ?_, fun e he => ?_⟩
    · rw [List.count_append, ← Nat.add_assoc]; exact h1'
    · rw [h2' e he, List.count_append, Nat.add_assoc]
  | err e =>
    exact ⟨u, r, rfl, h1, fun e' he => h2 e' (by simpa using he)⟩
  | panic x => exact ⟨u, r, rfl, h1, fun e he => by cases he⟩
  | outOfFuel => exact ⟨u, r, rfl, h1, fun e he => by cases he⟩

theorem attempt {p : P PeekableLexer K α} (hp : Framed p) : Framed (P.attempt p) := by
  intro s line toks hs
  obtain ⟨u, r, e, h1, h2⟩ := hp s line toks hs
  refine ⟨u, r, e, ?_, ?_⟩ <;> simp only [P.attempt] <;>
    rcases hq : p s with ⟨o, s⟩ <;> rw [hq] at h1 h2 <;> cases o <;>
    first | exact h1 | (intro e he; cases he)

theorem advance : Framed (P.advance : P PeekableLexer K _) := bind next fun _ => pure _

theorem ite {c : Prop} [Decidable c] {p q : P PeekableLexer K α} (hp : Framed p) (hq : Framed q) :
    Framed (if c then p else q) := by
  split
  · exact hp
  · exact hq

end Framed

/-- One step of a proof of `Framed`. -/
syntax "framed_step" : tactic
macro_rules | `(tactic| framed_step) => `(tactic| exact Framed.pure _)
macro_rules | `(tactic| framed_step) => `(tactic| exact Framed.error _ _)
macro_rules | `(tactic| framed_step) => `(tactic| exact Framed.panic _)
macro_rules | `(tactic| framed_step) => `(tactic| exact Framed.outOfFuel)
macro_rules | `(tactic| framed_step) => `(tactic| exact Framed.peek)
macro_rules | `(tactic| framed_step) => `(tactic| exact Framed.next)
macro_rules | `(tactic| framed_step) => `(tactic| exact Framed.advance)
macro_rules | `(tactic| framed_step) => `(tactic| assumption)
/-- Prove `Framed` by following the program. -/
macro "framed" : tactic => `(tactic| repeat' (first
  | framed_step
  | (refine Framed.bind ?_ fun _ => ?_)
  | (refine Framed.ite ?_ ?_)
  | (split)
  | (dsimp only; split)))

variable {K : Type}

theorem framed_skip : ∀ n, Framed (P.skip_zero_or_more_newlines n : P PeekableLexer K _)
  | 0 => Framed.outOfFuel
  | n + 1 => by have := framed_skip n; unfold P.skip_zero_or_more_newlines; framed
macro_rules | `(tactic| framed_step) => `(tactic| exact framed_skip _)

variable {F : Type} [FloatSem F]

namespace Obj

theorem framed_next_string : Framed (next_string : OP PeekableLexer _) := by unfold next_string; framed
macro_rules | `(tactic| framed_step) => `(tactic| exact framed_next_string)

theorem framed_expect_tag (t : Tok) : Framed (expect_tag t : OP PeekableLexer _) := by unfold expect_tag; framed
macro_rules | `(tactic| framed_step) => `(tactic| exact framed_expect_tag _)

theorem framed_parse_f64 : Framed (parse_f64 : OP PeekableLexer F) := by unfold parse_f64; framed
macro_rules | `(tactic| framed_step) => `(tactic| exact framed_parse_f64)

theorem framed_parse_isize : Framed (parse_isize : OP PeekableLexer _) := by unfold parse_isize; framed
macro_rules | `(tactic| framed_step) => `(tactic| exact framed_parse_isize)

theorem framed_try_once : Framed (try_once_f64 : OP PeekableLexer (Option F)) := by unfold try_once_f64; framed
macro_rules | `(tactic| framed_step) => `(tactic| exact framed_try_once)

theorem framed_vertex : Framed (parse_vertex : OP PeekableLexer (Vertex F)) := by unfold parse_vertex; framed
macro_rules | `(tactic| framed_step) => `(tactic| exact framed_vertex)

theorem framed_texture_vertex : Framed (parse_texture_vertex : OP PeekableLexer (TextureVertex F)) := by
  unfold parse_texture_vertex; framed
macro_rules | `(tactic| framed_step) => `(tactic| exact framed_texture_vertex)

theorem framed_normal_vertex : Framed (parse_normal_vertex : OP PeekableLexer (NormalVertex F)) := by
  unfold parse_normal_vertex; framed
macro_rules | `(tactic| framed_step) => `(tactic| exact framed_normal_vertex)

theorem framed_skip_one (n : Nat) : Framed (skip_one_or_more_newlines n : OP PeekableLexer _) := by
  unfold skip_one_or_more_newlines; framed
macro_rules | `(tactic| framed_step) => `(tactic| exact framed_skip_one _)

/-- At the end of the text the missing newline is reported before the missing name. -/
theorem framed_object_name (n : Nat) : Framed (parse_object_name n : OP PeekableLexer _) := by
  unfold parse_object_name
  refine Framed.bind Framed.peek fun t => ?_
  cases t with
  | none => framed
  | some t =>
    refine Framed.ite ?_ (Framed.pure _)
    refine Framed.bind (framed_expect_tag _) fun _ => ?_
    intro s line toks hs
    obtain ⟨s1, hs1, run1⟩ := Framed.next_run (K := ErrorKind) hs
    cases toks with
    | nil =>
      obtain ⟨s2, hs2, run2⟩ := Framed.next_run (K := ErrorKind) hs1
      have run : (do let object_name ← P.attempt next_string; skip_one_or_more_newlines n; P.ofResult object_name :
          OP PeekableLexer Tok) s = (.err ⟨s2.line_number, .EndOfFile,
            b!"Reached the end of the input in the process of getting the next token."⟩, s2) := by
        have a1 : (P.attempt next_string : OP PeekableLexer _) s = (.ok (.error ⟨s1.line_number, .EndOfFile,
            b!"Reached the end of the input in the process of getting the next token."⟩), s1) := by
          simp only [bind, Bind.bind, P.bind, P.attempt, next_string, run1]
          rfl
        have a2 : (expect_tag nl : OP PeekableLexer _) s1 = (.err ⟨s2.line_number, .EndOfFile,
            b!"Reached the end of the input in the process of getting the next token."⟩, s2) := by
          simp only [bind, Bind.bind, P.bind, expect_tag, run2]
          rfl
        simp only [bind, Bind.bind, P.bind, skip_one_or_more_newlines, a1, a2]
      rw [run]
      exact ⟨[], [], rfl, hs2, fun e he => by cases he; exact hs2.line⟩
    | cons t toks =>
      have key : Framed (do skip_one_or_more_newlines n; return t : OP PeekableLexer Tok) := by framed
      obtain ⟨u, r, e, h1, h2⟩ := key s1 _ _ hs1
      have run : (do let object_name ← P.attempt next_string; skip_one_or_more_newlines n; P.ofResult object_name :
          OP PeekableLexer Tok) s =
          (do skip_one_or_more_newlines n; return t : OP PeekableLexer Tok) s1 := by
        have : (P.attempt next_string : OP PeekableLexer _) s = (.ok (.ok t), s1) := by
          simp only [bind, Bind.bind, P.bind, P.attempt, next_string, run1]
          rfl
        simp only [bind, Bind.bind, P.bind, this]
        rfl
      have hc : ∀ k, line + (t :: k).count nl = line + ((t :: toks).take 1).count nl + k.count nl := by
        intro k
        rw [show t :: k = [t] ++ k from rfl, List.count_append, Nat.add_assoc]; rfl
      refine ⟨t :: u, r, congrArg (t :: ·) e, ?_, fun e he => ?_⟩
      · rw [run, hc]; exact h1
      · rw [run] at he
        rw [hc]; exact h2 e he
macro_rules | `(tactic| framed_step) => `(tactic| exact framed_object_name _)

variable (cfg : Cfg)

theorem framed_calculate_index (r : Nat × Nat) (v : Int) : Framed (calculate_index cfg r v : OP PeekableLexer _) := by
  unfold calculate_index; framed
macro_rules | `(tactic| framed_step) => `(tactic| exact framed_calculate_index _ _ _)

theorem framed_process_split (b : Bytes) (r : Nat × Nat) : Framed (process_split cfg b r : OP PeekableLexer _) := by
  unfold process_split; framed
macro_rules | `(tactic| framed_step) => `(tactic| exact framed_process_split _ _ _)

theorem framed_process_next_split (b : Option Bytes) (r : Nat × Nat) :
    Framed (process_next_split cfg b r : OP PeekableLexer _) := by
  unfold process_next_split; framed
macro_rules | `(tactic| framed_step) => `(tactic| exact framed_process_next_split _ _ _)

theorem framed_vtn_index (r : Ranges) : Framed (parse_vtn_index cfg r : OP PeekableLexer _) := by
  unfold parse_vtn_index; framed
macro_rules | `(tactic| framed_step) => `(tactic| exact framed_vtn_index _ _)

theorem framed_vtn_indices (r : Ranges) : ∀ n l, Framed (parse_vtn_indices cfg r n l : OP PeekableLexer _)
  | 0, _ => Framed.outOfFuel
  | n + 1, l => by
    unfold parse_vtn_indices
    refine Framed.bind (Framed.attempt (framed_vtn_index _ _)) fun x => ?_
    cases x with
    | ok i => exact framed_vtn_indices r n _
    | error e => exact Framed.pure _
macro_rules | `(tactic| framed_step) => `(tactic| exact framed_vtn_indices _ _ _ _)

theorem framed_point_loop (r : Nat × Nat) : ∀ n l k, Framed (parse_point_loop cfg r n l k : OP PeekableLexer _)
  | 0, _, _ => Framed.outOfFuel
  | n + 1, l, k => by
    have := fun l k => framed_point_loop r n l k
    unfold parse_point_loop
    framed
    exact this _ _
macro_rules | `(tactic| framed_step) => `(tactic| exact framed_point_loop _ _ _ _ _)

theorem framed_point (n : Nat) (l : List Element) (r : Nat × Nat) : Framed (parse_point cfg n l r : OP PeekableLexer _) := by
  unfold parse_point; framed
macro_rules | `(tactic| framed_step) => `(tactic| exact framed_point _ _ _ _)

theorem framed_line (n : Nat) (l : List Element) (r : Ranges) : Framed (parse_line cfg n l r : OP PeekableLexer _) := by
  unfold parse_line; framed
macro_rules | `(tactic| framed_step) => `(tactic| exact framed_line _ _ _ _)

theorem framed_face (n : Nat) (l : List Element) (r : Ranges) : Framed (parse_face cfg n l r : OP PeekableLexer _) := by
  unfold parse_face; framed
macro_rules | `(tactic| framed_step) => `(tactic| exact framed_face _ _ _ _)

theorem framed_elements (n : Nat) (l : List Element) (r : Ranges) : Framed (parse_elements cfg n l r : OP PeekableLexer _) := by
  unfold parse_elements; framed
macro_rules | `(tactic| framed_step) => `(tactic| exact framed_elements _ _ _ _)

theorem framed_groups_loop : ∀ n l k, Framed (parse_groups_loop n l k : OP PeekableLexer _)
  | 0, _, _ => Framed.outOfFuel
  | n + 1, l, k => by
    have := fun l k => framed_groups_loop n l k
    unfold parse_groups_loop
    framed
    exact this _ _
macro_rules | `(tactic| framed_step) => `(tactic| exact framed_groups_loop _ _ _)

theorem framed_groups (n : Nat) (l : List Group) : Framed (parse_groups n l : OP PeekableLexer _) := by
  unfold parse_groups; framed
macro_rules | `(tactic| framed_step) => `(tactic| exact framed_groups _ _)

theorem framed_smoothing (l : List SmoothingGroup) : Framed (parse_smoothing_group l : OP PeekableLexer _) := by
  unfold parse_smoothing_group; framed
macro_rules | `(tactic| framed_step) => `(tactic| exact framed_smoothing _)

theorem framed_material_name (l : List (Option Bytes)) : Framed (parse_material_name l : OP PeekableLexer _) := by
  unfold parse_material_name; framed
macro_rules | `(tactic| framed_step) => `(tactic| exact framed_material_name _)

omit [FloatSem F] in
theorem framed_step_g (n : Nat) (st : ObjState F) : Framed (step_g n st : OP PeekableLexer _) := by
  unfold step_g; framed
omit [FloatSem F] in
theorem framed_step_s (st : ObjState F) : Framed (step_s st : OP PeekableLexer _) := by
  unfold step_s; framed
omit [FloatSem F] in
theorem framed_step_usemtl (st : ObjState F) : Framed (step_usemtl st : OP PeekableLexer _) := by
  unfold step_usemtl; framed
theorem framed_step_v (st : ObjState F) : Framed (step_v st : OP PeekableLexer _) := by
  unfold step_v; framed
theorem framed_step_vt (st : ObjState F) : Framed (step_vt st : OP PeekableLexer _) := by
  unfold step_vt; framed
theorem framed_step_vn (st : ObjState F) : Framed (step_vn st : OP PeekableLexer _) := by
  unfold step_vn; framed
omit [FloatSem F] in
theorem framed_step_element (n : Nat) (st : ObjState F) : Framed (step_element cfg n st : OP PeekableLexer _) := by
  unfold step_element; framed

theorem framed_object_loop (m : Nat) : ∀ n (st : ObjState F), Framed (object_loop cfg m n st : OP PeekableLexer _)
  | 0, _ => Framed.outOfFuel
  | n + 1, st => by
    have ih := fun st => framed_object_loop m n st
    unfold object_loop
    refine Framed.bind Framed.peek fun t => ?_
    cases t with
    | none => exact Framed.pure _
    | some t =>
      refine Framed.ite (Framed.bind (framed_step_g _ _) ih) ?_
      refine Framed.ite (Framed.bind (framed_step_s _) ih) ?_
      refine Framed.ite (Framed.bind (framed_step_usemtl _) ih) ?_
      refine Framed.ite (Framed.bind (framed_step_v _) ih) ?_
      refine Framed.ite (Framed.bind (framed_step_vt _) ih) ?_
      refine Framed.ite (Framed.bind (framed_step_vn _) ih) ?_
      refine Framed.ite (Framed.bind (framed_step_element _ _ _) ih) ?_
      refine Framed.ite (Framed.bind (framed_skip_one _) fun _ => ih _) ?_
      exact Framed.ite (Framed.pure _) (Framed.error _ _)

omit [FloatSem F] in
theorem finishObject_not_err (name : Tok) (st : ObjState F) (e : ParseError ErrorKind) :
    finishObject cfg name st ≠ .err e := by
  have h1 : ∀ e, parse_shape_entries cfg st.elements st.group_entry_table st.smoothing_group_entry_table ≠ .err e := by
    intro e
    unfold parse_shape_entries
    dsimp only
    repeat' (split <;> try (intro h; cases h; done))
  have h2 : ∀ e, parse_geometries st.material_name_entry_table st.material_names ≠ .err e := by
    intro e
    unfold parse_geometries
    split <;> (intro h; cases h)
  unfold finishObject
  split
  · split
    · intro h; cases h
    · rename_i h; exact absurd h (h2 _)
    · intro h; cases h
    · intro h; cases h
  · rename_i h; exact absurd h (h1 _)
  · intro h; cases h
  · intro h; cases h

theorem framed_object (n : Nat) (ctr : Counters) : Framed (parse_object cfg n ctr : OP PeekableLexer (Object F × _)) := by
  unfold parse_object
  exact Framed.bind (framed_object_name _) fun _ => Framed.bind (framed_object_loop _ _ _ _) fun _ =>
    Framed.lift (finishObject_not_err _ _ _)

theorem framed_objects_loop (m : Nat) : ∀ n ctr l, Framed (parse_objects_loop cfg m n ctr l : OP PeekableLexer (List (Object F)))
  | 0, _, _ => Framed.outOfFuel
  | n + 1, ctr, l => by
    unfold parse_objects_loop
    refine Framed.bind Framed.peek fun t => ?_
    cases t with
    | none => exact Framed.pure _
    | some t =>
      exact Framed.bind (framed_object _ _ _) fun _ => Framed.bind (framed_skip _) fun _ => framed_objects_loop m n _ _

theorem framed_objects (n : Nat) : Framed (parse_objects cfg n : OP PeekableLexer (List (Object F))) :=
  Framed.bind (framed_skip _) fun _ => framed_objects_loop _ _ _ _ _

theorem framed_mtllib_line_loop : ∀ n l, Framed (mtllib_line_loop n l : OP PeekableLexer _)
  | 0, _ => Framed.outOfFuel
  | n + 1, l => by
    have := fun l => framed_mtllib_line_loop n l
    unfold mtllib_line_loop
    framed
    exact this _

theorem framed_mtllib_line (n : Nat) (l : List Bytes) : Framed (parse_material_library_line n l : OP PeekableLexer _) :=
  Framed.bind (framed_expect_tag _) fun _ => framed_mtllib_line_loop _ _

theorem framed_mtllibs_loop (m : Nat) : ∀ n l, Framed (mtllibs_loop m n l : OP PeekableLexer _)
  | 0, _ => Framed.outOfFuel
  | n + 1, l => by
    unfold mtllibs_loop
    refine Framed.bind Framed.peek fun t => Framed.ite ?_ (Framed.pure _)
    exact Framed.bind (framed_mtllib_line _ _) fun _ => Framed.bind (framed_skip _) fun _ => framed_mtllibs_loop m n _

theorem framed_mtllibs (n : Nat) : Framed (parse_material_libraries n : OP PeekableLexer _) :=
  Framed.bind (framed_skip _) fun _ => framed_mtllibs_loop _ _ _

theorem framed_objset (n : Nat) : Framed (parse_objset cfg n : OP PeekableLexer (ObjectSet F)) :=
  Framed.bind (framed_mtllibs _) fun _ => Framed.bind (framed_objects _ _) fun _ => Framed.pure _

end Obj

namespace Mtl

theorem framed_next_string : Framed (next_string : MP PeekableLexer _) := by unfold next_string; framed
macro_rules | `(tactic| framed_step) => `(tactic| exact Mtl.framed_next_string)

theorem framed_expect_tag (t : Tok) : Framed (expect_tag t : MP PeekableLexer _) := by unfold expect_tag; framed
macro_rules | `(tactic| framed_step) => `(tactic| exact Mtl.framed_expect_tag _)

theorem framed_parse_usize : Framed (parse_usize : MP PeekableLexer _) := by unfold parse_usize; framed
macro_rules | `(tactic| framed_step) => `(tactic| exact Mtl.framed_parse_usize)

theorem framed_illumination : Framed (parse_illumination_model : MP PeekableLexer _) := by
  unfold parse_illumination_model; framed
macro_rules | `(tactic| framed_step) => `(tactic| exact Mtl.framed_illumination)

theorem framed_map_name : Framed (map_name : MP PeekableLexer _) := by unfold map_name; framed
macro_rules | `(tactic| framed_step) => `(tactic| exact Mtl.framed_map_name)

theorem framed_map (t : Tok) : Framed (parse_map t : MP PeekableLexer _) := by unfold parse_map; framed
macro_rules | `(tactic| framed_step) => `(tactic| exact Mtl.framed_map _)

theorem framed_map_bump : Framed (parse_map_bump : MP PeekableLexer _) := by unfold parse_map_bump; framed
macro_rules | `(tactic| framed_step) => `(tactic| exact Mtl.framed_map_bump)

theorem framed_newmtl : Framed (parse_newmtl : MP PeekableLexer _) := by unfold parse_newmtl; framed
macro_rules | `(tactic| framed_step) => `(tactic| exact Mtl.framed_newmtl)

theorem framed_parse_f64 : Framed (parse_f64 : MP PeekableLexer F) := by unfold parse_f64; framed
macro_rules | `(tactic| framed_step) => `(tactic| exact Mtl.framed_parse_f64)

theorem framed_color : Framed (parse_color : MP PeekableLexer (Color F)) := by unfold parse_color; framed
macro_rules | `(tactic| framed_step) => `(tactic| exact Mtl.framed_color)

theorem framed_material_step (t : Tok) (m : Material F) : Framed (material_step t m : MP PeekableLexer _) := by
  unfold material_step
  have h1 : ∀ w, Framed (do expect_tag w; parse_color : MP PeekableLexer (Color F)) := by intro w; framed
  have h2 : ∀ w, Framed (do expect_tag w; parse_f64 : MP PeekableLexer F) := by intro w; framed
  refine Framed.ite (Framed.bind (h1 _) fun _ => Framed.pure _) ?_
  refine Framed.ite (Framed.bind (h1 _) fun _ => Framed.pure _) ?_
  refine Framed.ite (Framed.bind (h1 _) fun _ => Framed.pure _) ?_
  refine Framed.ite (Framed.bind (h1 _) fun _ => Framed.pure _) ?_
  refine Framed.ite (Framed.bind (h2 _) fun _ => Framed.pure _) ?_
  refine Framed.ite (Framed.bind framed_illumination fun _ => Framed.pure _) ?_
  refine Framed.ite (Framed.bind (h2 _) fun _ => Framed.pure _) ?_
  refine Framed.ite (Framed.bind (h2 _) fun _ => Framed.pure _) ?_
  refine Framed.ite (Framed.bind (framed_map _) fun _ => Framed.pure _) ?_
  refine Framed.ite (Framed.bind (framed_map _) fun _ => Framed.pure _) ?_
  refine Framed.ite (Framed.bind (framed_map _) fun _ => Framed.pure _) ?_
  refine Framed.ite (Framed.bind (framed_map _) fun _ => Framed.pure _) ?_
  refine Framed.ite (Framed.bind (framed_map _) fun _ => Framed.pure _) ?_
  refine Framed.ite (Framed.bind framed_map_bump fun _ => Framed.pure _) ?_
  refine Framed.ite (Framed.bind (framed_map _) fun _ => Framed.pure _) ?_
  refine Framed.ite (Framed.bind (framed_map _) fun _ => Framed.pure _) ?_
  exact Framed.ite (Framed.bind (framed_map _) fun _ => Framed.pure _) (Framed.error _ _)

theorem framed_material_loop (m : Nat) : ∀ n (x : Material F), Framed (material_loop m n x : MP PeekableLexer _)
  | 0, _ => Framed.outOfFuel
  | n + 1, x => by
    unfold material_loop
    refine Framed.bind Framed.peek fun t => ?_
    cases t with
    | none => exact Framed.pure _
    | some t =>
      exact Framed.ite (Framed.pure _) (Framed.bind (framed_material_step _ _) fun _ =>
        Framed.bind (framed_skip _) fun _ => framed_material_loop m n _)

theorem framed_material (n : Nat) : Framed (parse_material n : MP PeekableLexer (Material F)) :=
  Framed.bind framed_newmtl fun _ => Framed.bind (framed_skip _) fun _ => framed_material_loop _ _ _

theorem framed_mtlset_loop (m : Nat) : ∀ n l, Framed (mtlset_loop m n l : MP PeekableLexer (List (Material F)))
  | 0, _ => Framed.outOfFuel
  | n + 1, l => by
    unfold mtlset_loop
    refine Framed.bind Framed.peek fun t => Framed.ite ?_ (Framed.pure _)
    exact Framed.bind (framed_material _) fun _ => framed_mtlset_loop m n _

theorem framed_mtlset (n : Nat) : Framed (parse_mtlset n : MP PeekableLexer (MaterialSet F)) := by
  unfold parse_mtlset
  refine Framed.bind (framed_skip _) fun _ => Framed.bind (framed_mtlset_loop _ _ _) fun _ => ?_
  framed

end Mtl

end Verif
