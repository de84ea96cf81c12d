import Verif.Proofs.Framed
import Verif.Props.Samples

/-!
# Contracts of the single methods of the two parsers

`Before s line toks` (`Proofs/Framed.lean`): the parser `s` has the tokens `toks` before it and its
line counter stands at `line`.
-/

namespace Verif.Props

open Verif

/-- A parser that has just been made has all tokens of the text before it and stands at line 1. -/
theorem before_new (input : Bytes) : Before (Obj.Parser.new input) 1 (Spec.tokens input) :=
  ⟨rfl, holds_new input⟩

/-- **C74.** Wherever a method of the parser of `.obj` files is called, it takes tokens from the
front, adds the number of newlines among them to the line counter, and reports the counter as it
then stands in its errors. -/
theorem C74_lines_obj {F : Type} [FloatSem F] (cfg : Obj.Cfg) (n : Nat) :
    (Framed Obj.next_string ∧ (∀ w, Framed (Obj.expect_tag w)) ∧ Framed (Obj.parse_f64 (F := F)) ∧
      Framed Obj.parse_isize ∧ Framed (Obj.try_once_f64 (F := F)) ∧
      Framed (Obj.skip_one_or_more_newlines n) ∧
      Framed (P.skip_zero_or_more_newlines n : P PeekableLexer Obj.ErrorKind Unit)) ∧
    (Framed (Obj.parse_vertex (F := F)) ∧ Framed (Obj.parse_texture_vertex (F := F)) ∧
      Framed (Obj.parse_normal_vertex (F := F)) ∧ Framed (Obj.parse_object_name n)) ∧
    (∀ r, Framed (Obj.parse_vtn_index cfg r) ∧ (∀ l, Framed (Obj.parse_vtn_indices cfg r n l)) ∧
      ∀ l, Framed (Obj.parse_point cfg n l r.vertex) ∧ Framed (Obj.parse_line cfg n l r) ∧
        Framed (Obj.parse_face cfg n l r) ∧ Framed (Obj.parse_elements cfg n l r)) ∧
    ((∀ l, Framed (Obj.parse_groups n l)) ∧ (∀ l, Framed (Obj.parse_smoothing_group l)) ∧
      (∀ l, Framed (Obj.parse_material_name l)) ∧
      (∀ l, Framed (Obj.parse_material_library_line n l)) ∧ Framed (Obj.parse_material_libraries n)) ∧
    (∀ c, Framed (Obj.parse_object (F := F) cfg n c)) ∧ Framed (Obj.parse_objects (F := F) cfg n) ∧
    Framed (Obj.parse_objset (F := F) cfg n) :=
  ⟨⟨Obj.framed_next_string, Obj.framed_expect_tag, Obj.framed_parse_f64, Obj.framed_parse_isize,
    Obj.framed_try_once, Obj.framed_skip_one _, framed_skip _⟩,
   ⟨Obj.framed_vertex, Obj.framed_texture_vertex, Obj.framed_normal_vertex, Obj.framed_object_name _⟩,
   fun _ => ⟨Obj.framed_vtn_index _ _, fun _ => Obj.framed_vtn_indices _ _ _ _, fun _ =>
    ⟨Obj.framed_point _ _ _ _, Obj.framed_line _ _ _ _, Obj.framed_face _ _ _ _, Obj.framed_elements _ _ _ _⟩⟩,
   ⟨fun _ => Obj.framed_groups _ _, fun _ => Obj.framed_smoothing _, fun _ => Obj.framed_material_name _,
    fun _ => Obj.framed_mtllib_line _ _, Obj.framed_mtllibs _⟩,
   fun _ => Obj.framed_object _ _ _, Obj.framed_objects _ _, Obj.framed_objset _ _⟩

/-- **C74.** The same for the parser of `.mtl` files. -/
theorem C74_lines_mtl {F : Type} [FloatSem F] (n : Nat) :
    (Framed Mtl.next_string ∧ (∀ w, Framed (Mtl.expect_tag w)) ∧ Framed (Mtl.parse_f64 (F := F)) ∧
      Framed Mtl.parse_usize ∧
      Framed (P.skip_zero_or_more_newlines n : P PeekableLexer Mtl.ErrorKind Unit)) ∧
    (Framed (Mtl.parse_color (F := F)) ∧ Framed (Mtl.parse_ambient_component (F := F)) ∧
      Framed (Mtl.parse_diffuse_component (F := F)) ∧ Framed (Mtl.parse_specular_component (F := F)) ∧
      Framed (Mtl.parse_emissive_component (F := F)) ∧ Framed (Mtl.parse_dissolve_component (F := F)) ∧
      Framed (Mtl.parse_specular_exponent (F := F)) ∧ Framed (Mtl.parse_optical_density (F := F)) ∧
      Framed Mtl.parse_illumination_model ∧ Framed Mtl.parse_newmtl) ∧
    (Framed Mtl.parse_map_ambient ∧ Framed Mtl.parse_map_diffuse ∧ Framed Mtl.parse_map_specular ∧
      Framed Mtl.parse_map_emissive ∧ Framed Mtl.parse_map_bump ∧ Framed Mtl.parse_map_displacement ∧
      Framed Mtl.parse_map_dissolve ∧ Framed Mtl.parse_map_decal ∧
      Framed Mtl.parse_map_specular_exponent) ∧
    Framed (Mtl.parse_material (F := F) n) ∧ Framed (Mtl.parse_mtlset (F := F) n) := by
  have h1 : ∀ w, Framed (do Mtl.expect_tag w; Mtl.parse_color : Mtl.MP PeekableLexer (Mtl.Color F)) :=
    fun w => Framed.bind (Mtl.framed_expect_tag _) fun _ => Mtl.framed_color
  have h2 : ∀ w, Framed (do Mtl.expect_tag w; Mtl.parse_f64 : Mtl.MP PeekableLexer F) :=
    fun w => Framed.bind (Mtl.framed_expect_tag _) fun _ => Mtl.framed_parse_f64
  exact ⟨⟨Mtl.framed_next_string, Mtl.framed_expect_tag, Mtl.framed_parse_f64, Mtl.framed_parse_usize,
      framed_skip _⟩,
    ⟨Mtl.framed_color, h1 _, h1 _, h1 _, h1 _, h2 _, h2 _, h2 _, Mtl.framed_illumination, Mtl.framed_newmtl⟩,
    ⟨Mtl.framed_map _, Mtl.framed_map _, Mtl.framed_map _, Mtl.framed_map _, Mtl.framed_map_bump,
      Mtl.framed_map _, Mtl.framed_map _, Mtl.framed_map _, Mtl.framed_map _⟩,
    Mtl.framed_material _, Mtl.framed_mtlset _⟩

/-- The method insists on the word `w`: at the end of the text it fails with the kind `end_` and the
text `atEnd`; at another token it takes that token, counts it if it is a newline, and fails with the
kind `other` and the text `instead` has for that token. -/
def NeedsWord {K α : Type} (p : P PeekableLexer K α) (w : Tok) (end_ : K) (atEnd : Bytes) (other : K)
    (instead : Tok → Bytes) : Prop :=
  (∀ s line, Before s line [] → ∃ s', p s = (.err ⟨line, end_, atEnd⟩, s') ∧ Before s' line []) ∧
  ∀ s line t rest, t ≠ w → Before s line (t :: rest) →
    ∃ s', p s = (.err ⟨line + [t].count nl, other, instead t⟩, s') ∧
      Before s' (line + [t].count nl) rest

theorem NeedsWord.bind {K α β : Type} {p : P PeekableLexer K α} {f : α → P PeekableLexer K β} {w : Tok}
    {e o : K} {m : Bytes} {g : Tok → Bytes} (h : NeedsWord p w e m o g) : NeedsWord (p >>= f) w e m o g := by
  refine ⟨fun s line hs => ?_, fun s line t rest ht hs => ?_⟩
  · obtain ⟨s', h1, h2⟩ := h.1 s line hs
    exact ⟨s', by simp only [Bind.bind, P.bind, h1], h2⟩
  · obtain ⟨s', h1, h2⟩ := h.2 s line t rest ht hs
    exact ⟨s', by simp only [Bind.bind, P.bind, h1], h2⟩

/-- A method that looks at the next token and fails unless it is `w`. -/
theorem NeedsWord.next {K α : Type} {f : Option Tok → P PeekableLexer K α} {w : Tok}
    {e o : K} {m : Bytes} {g : Tok → Bytes} (h0 : f none = P.error e m)
    (h1 : ∀ t, t ≠ w → f (some t) = P.error o (g t)) : NeedsWord (P.next >>= f) w e m o g := by
  refine ⟨fun s line hs => ?_, fun s line t rest ht hs => ?_⟩
  · obtain ⟨s', hs', run⟩ := Framed.next_run (K := K) hs
    refine ⟨s', ?_, hs'⟩
    simp only [Bind.bind, P.bind, run, List.head?, h0, P.error, hs'.line]
    rfl
  · obtain ⟨s', hs', run⟩ := Framed.next_run (K := K) hs
    refine ⟨s', ?_, hs'⟩
    simp only [Bind.bind, P.bind, run, List.head?, h1 t ht, P.error, hs'.line]
    rfl

/-- `obj::Parser` insists on the word `w`, in its own words. -/
def InsistsObj {α : Type} (p : Obj.OP PeekableLexer α) (w : Tok) : Prop :=
  NeedsWord p w .EndOfFile b!"Reached the end of the input in the process of getting the next token."
    .ExpectedTagStatement fun t => b!"Expected `" ++ w ++ b!"` but got `" ++ t ++ b!"` instead."

theorem insistsObj_expect_tag (w : Tok) : InsistsObj (Obj.expect_tag w) w :=
  NeedsWord.next rfl fun t ht => by simp only [ne_eq, ht, not_false_eq_true, if_true]


/-- **C74.** Every statement method of the parser of `.obj` files insists on its own word. -/
theorem C74_words_obj {F : Type} [FloatSem F] (cfg : Obj.Cfg) (n : Nat) :
    (∀ w, InsistsObj (Obj.expect_tag w) w) ∧
    InsistsObj (Obj.parse_vertex (F := F)) b!"v" ∧
    InsistsObj (Obj.parse_texture_vertex (F := F)) b!"vt" ∧
    InsistsObj (Obj.parse_normal_vertex (F := F)) b!"vn" ∧
    (∀ l r, InsistsObj (Obj.parse_point cfg n l r) b!"p") ∧
    (∀ l r, InsistsObj (Obj.parse_line cfg n l r) b!"l") ∧
    (∀ l r, InsistsObj (Obj.parse_face cfg n l r) b!"f") ∧
    (∀ l, InsistsObj (Obj.parse_groups n l) b!"g") ∧
    (∀ l, InsistsObj (Obj.parse_smoothing_group l) b!"s") ∧
    (∀ l, InsistsObj (Obj.parse_material_name l) b!"usemtl") ∧
    (∀ l, InsistsObj (Obj.parse_material_library_line n l) b!"mtllib") ∧
    InsistsObj (Obj.skip_one_or_more_newlines n) b!"\n" := by
  have h := insistsObj_expect_tag
  exact ⟨h, (h _).bind, (h _).bind, (h _).bind, fun _ _ => (h _).bind, fun _ _ => (h _).bind,
    fun _ _ => (h _).bind, fun _ => (h _).bind, fun _ => (h _).bind, fun _ => (h _).bind,
    fun _ => (h _).bind, (h _).bind⟩

/-- `mtl::Parser` insists on the word `w`, in its own words. -/
def InsistsMtl {α : Type} (p : Mtl.MP PeekableLexer α) (w : Tok) : Prop :=
  NeedsWord p w .EndOfFile [] .ExpectedTagStatement
    fun t => b!"Expected statement " ++ w ++ b!" but got statement " ++ t

theorem insistsMtl_expect_tag (w : Tok) : InsistsMtl (Mtl.expect_tag w) w :=
  NeedsWord.next rfl fun t ht => by simp only [ne_eq, ht, not_false_eq_true, if_true]


/-- **C74.** The component methods of the parser of `.mtl` files insist on their own word;
`parse_newmtl` does so with messages of its own. -/
theorem C74_words_mtl {F : Type} [FloatSem F] :
    (∀ w, InsistsMtl (Mtl.expect_tag w) w) ∧
    InsistsMtl (Mtl.parse_ambient_component (F := F)) b!"Ka" ∧
    InsistsMtl (Mtl.parse_diffuse_component (F := F)) b!"Kd" ∧
    InsistsMtl (Mtl.parse_specular_component (F := F)) b!"Ks" ∧
    InsistsMtl (Mtl.parse_emissive_component (F := F)) b!"Ke" ∧
    InsistsMtl (Mtl.parse_dissolve_component (F := F)) b!"d" ∧
    InsistsMtl (Mtl.parse_specular_exponent (F := F)) b!"Ns" ∧
    InsistsMtl (Mtl.parse_optical_density (F := F)) b!"Ni" ∧
    InsistsMtl Mtl.parse_illumination_model b!"illum" ∧
    NeedsWord Mtl.parse_newmtl b!"newmtl" .EndOfFile b!"Expected `newmtl` but got end of input."
      .ExpectedTagStatement fun t => b!"Expected `newmtl` but got " ++ t ++ b!"." := by
  have h := insistsMtl_expect_tag
  refine ⟨h, (h _).bind, (h _).bind, (h _).bind, (h _).bind, (h _).bind, (h _).bind, (h _).bind,
    (h _).bind, NeedsWord.next rfl fun t ht => ?_⟩
  simp only [ht, if_false]

/-- A successful call that takes nothing and returns `a`. -/
def Leaves {K α : Type} (p : P PeekableLexer K α) (s : PState PeekableLexer) (line : Nat) (toks : List Tok)
    (a : α) : Prop :=
  ∃ s', p s = (.ok a, s') ∧ Before s' line toks

theorem Leaves.peek {K α : Type} {f : Option Tok → P PeekableLexer K α} {s : PState PeekableLexer}
    {line : Nat} {toks : List Tok} {a : α} (hs : Before s line toks) (h : f toks.head? = Pure.pure a) :
    Leaves (P.peek >>= f) s line toks a := by
  obtain ⟨s', hs', run⟩ := Framed.peek_run (K := K) hs
  refine ⟨s', ?_, hs'⟩
  simp only [Bind.bind, P.bind, run, h]
  rfl

/-- **C74.** The methods for optional parts take nothing and succeed when the next token is not
theirs (or there is none); `parse_elements` fails without taking anything. -/
theorem C74_optional {F : Type} [FloatSem F] (cfg : Obj.Cfg) (n : Nat) (s : PState PeekableLexer)
    (line : Nat) (toks : List Tok) (hs : Before s line toks) :
    ((∀ t, toks.head? = some t → parseF64 (F := F) t = none) →
      Leaves (Obj.try_once_f64 (F := F)) s line toks none) ∧
    (toks.head? ≠ some b!"o" → Leaves (Obj.parse_object_name n) s line toks []) ∧
    (toks.head? ≠ some b!"p" → toks.head? ≠ some b!"l" → toks.head? ≠ some b!"f" → ∀ l r,
      ∃ s', Obj.parse_elements cfg n l r s = (.err ⟨line, .ElementMustBeAPointLineOrFace,
        b!"An element must be a point (`p`), line (`l`), or face (`f`)."⟩, s') ∧ Before s' line toks) ∧
    (toks.head? ≠ some b!"map_Ka" → Leaves Mtl.parse_map_ambient s line toks none) ∧
    (toks.head? ≠ some b!"map_Kd" → Leaves Mtl.parse_map_diffuse s line toks none) ∧
    (toks.head? ≠ some b!"map_Ks" → Leaves Mtl.parse_map_specular s line toks none) ∧
    (toks.head? ≠ some b!"map_Ke" → Leaves Mtl.parse_map_emissive s line toks none) ∧
    (toks.head? ≠ some b!"map_Bump" → toks.head? ≠ some b!"bump" →
      Leaves Mtl.parse_map_bump s line toks none) ∧
    (toks.head? ≠ some b!"disp" → Leaves Mtl.parse_map_displacement s line toks none) ∧
    (toks.head? ≠ some b!"map_d" → Leaves Mtl.parse_map_dissolve s line toks none) ∧
    (toks.head? ≠ some b!"decal" → Leaves Mtl.parse_map_decal s line toks none) ∧
    (toks.head? ≠ some b!"map_Ns" → Leaves Mtl.parse_map_specular_exponent s line toks none) := by
  have hm : ∀ w, toks.head? ≠ some w → Leaves (Mtl.parse_map w) s line toks none :=
    fun w h => Leaves.peek hs (by simp only [h, if_false])
  refine ⟨fun h => Leaves.peek hs ?_, fun h => Leaves.peek hs ?_, fun h1 h2 h3 l r => ?_,
    hm _, hm _, hm _, hm _, fun h1 h2 => Leaves.peek hs (by simp only [h1, h2, if_false]), hm _, hm _, hm _, hm _⟩
  · cases ht : toks.head? with
    | none => rfl
    | some t => simp only [h t ht]
  · cases ht : toks.head? with
    | none => rfl
    | some t =>
      rw [ht] at h
      have : ¬ t = b!"o" := fun e => h (by rw [e])
      simp only [this, if_false]
  · obtain ⟨s', hs', run⟩ := Framed.peek_run (K := Obj.ErrorKind) hs
    refine ⟨s', ?_, hs'⟩
    simp only [Obj.parse_elements, Bind.bind, P.bind, run, h1, h2, h3, if_false, P.error, hs'.line]

/-- **C74.** Which index a reference stands for: a value `v` is accepted exactly if it lies after
`min` and not after `max`, and stands for the entry `v - 1 - min`; nothing is taken. -/
theorem C74_index (cfg : Obj.Cfg) (min max : Nat) (v : Int) (s : PState PeekableLexer)
    (hmax : max < 2 ^ 63) (hv : isizeMin ≤ v ∧ v ≤ isizeMax) :
    (∀ n : Nat, Obj.calculate_index cfg (min, max) v s = (.ok n, s) ↔
      (min : Int) < v ∧ v ≤ max ∧ (n : Int) = v - 1 - min) ∧
    (¬ ((min : Int) < v ∧ v ≤ max) →
      if cfg.overflow_checks = true ∧ (max : Int) - v > isizeMax then
        Obj.calculate_index cfg (min, max) v s = (.panic .indexSubOverflow, s)
      else
        ∃ m, Obj.calculate_index cfg (min, max) v s = (.err ⟨s.line_number, .VTNIndexOutOfRange, m⟩, s)) := by
  simp only [isizeMin, isizeMax] at hv
  by_cases hp : v ≤ 0
  · have hno : ¬ ((min : Int) < v ∧ v ≤ max) := by omega
    by_cases hr : isizeMin ≤ (max : Int) - v ∧ (max : Int) - v ≤ isizeMax
    · have hsmall : ¬ (cfg.overflow_checks = true ∧ (max : Int) - v > isizeMax) := by
        simp only [isizeMin, isizeMax] at hr ⊢; omega
      have h2 : ¬ ((max : Int) - v ≥ (min : Int) ∧ (max : Int) - v < (max : Int)) := by omega
      have run : Obj.calculate_index cfg (min, max) v s = (.err ⟨s.line_number, .VTNIndexOutOfRange,
          b!"Expected index in range [" ++ showNat min ++ b!", " ++ showNat max ++
            b!"), but got " ++ showInt ((max : Int) - v) ++ b!"."⟩, s) := by
        simp only [Obj.calculate_index, hp, hr, and_self, if_true]
        show P.bind (P.pure _) _ s = _
        simp only [P.bind, P.pure, h2, if_false, P.error]
      rw [run]
      exact ⟨fun n => ⟨fun h => (by cases h), fun h => absurd ⟨h.1, h.2.1⟩ hno⟩, fun _ => by rw [if_neg hsmall]; exact ⟨_, rfl⟩⟩
    · have hbig : (max : Int) - v > isizeMax := by
        simp only [isizeMin, isizeMax] at hr ⊢; omega
      cases ho : cfg.overflow_checks with
      | true =>
        have run : Obj.calculate_index cfg (min, max) v s = (.panic .indexSubOverflow, s) := by
          simp only [Obj.calculate_index, hp, hr, ho, if_true, if_false]
          rfl
        rw [run]
        exact ⟨fun n => ⟨fun h => (by cases h), fun h => absurd ⟨h.1, h.2.1⟩ hno⟩, fun _ => by simp only [hbig, and_self, if_true]⟩
      | false =>
        have h2 : ¬ (Obj.wrapIsize ((max : Int) - v) ≥ (min : Int) ∧
            Obj.wrapIsize ((max : Int) - v) < (max : Int)) := by
          simp only [Obj.wrapIsize, isizeMax] at hbig ⊢
          omega
        have run : Obj.calculate_index cfg (min, max) v s = (.err ⟨s.line_number, .VTNIndexOutOfRange,
            b!"Expected index in range [" ++ showNat min ++ b!", " ++ showNat max ++
              b!"), but got " ++ showInt (Obj.wrapIsize ((max : Int) - v)) ++ b!"."⟩, s) := by
          simp only [Obj.calculate_index, hp, hr, ho, if_true, if_false]
          show P.bind (P.pure _) _ s = _
          simp only [P.bind, P.pure, h2, if_false, P.error]
        rw [run]
        exact ⟨fun n => ⟨fun h => (by cases h), fun h => absurd ⟨h.1, h.2.1⟩ hno⟩, fun _ => by simp only [Bool.false_eq_true, false_and, if_false]; exact ⟨_, rfl⟩⟩
  · by_cases hr : v - 1 ≥ (min : Int) ∧ v - 1 < (max : Int)
    · have h3 : ¬ (cfg.debug_assertions = true ∧ ¬ v - 1 ≥ 0) := by omega
      have run : Obj.calculate_index cfg (min, max) v s = (.ok (v - 1 - min).toNat, s) := by
        simp only [Obj.calculate_index, hp, if_false]
        show P.bind (P.pure _) _ s = _
        simp only [P.bind, P.pure, hr, and_self, if_true, h3, if_false]
        rfl
      rw [run]
      refine ⟨fun n => ⟨fun h => ?_, fun h => ?_⟩, fun h => absurd (by omega) h⟩
      · have : (v - 1 - min).toNat = n := by simpa using h
        omega
      · have : (v - 1 - min).toNat = n := by omega
        rw [this]
    · have run : Obj.calculate_index cfg (min, max) v s = (.err ⟨s.line_number, .VTNIndexOutOfRange,
          b!"Expected index in range [" ++ showNat min ++ b!", " ++ showNat max ++
            b!"), but got " ++ showInt (v - 1) ++ b!"."⟩, s) := by
        simp only [Obj.calculate_index, hp, if_false]
        show P.bind (P.pure _) _ s = _
        simp only [P.bind, P.pure, hr, if_false, P.error]
      rw [run]
      exact ⟨fun n => ⟨fun h => (by cases h), fun h => by omega⟩, fun _ => by
        rw [if_neg (by simp only [isizeMax]; omega)]; exact ⟨_, rfl⟩⟩

/-! ## Concrete cases -/

/-- A parser in the middle of a text: it has taken `v`, `1`, newline, and has looked at `vn`. -/
def midway : PState PeekableLexer :=
  ((do P.advance; P.advance; P.advance; let _ ← P.peek; return () : Obj.OP PeekableLexer Unit)
    (Obj.Parser.new b!"v 1\nvn 4 5 6\n")).2

theorem midway_before : Before midway 2 [b!"vn", b!"4", b!"5", b!"6", b!"\n"] := by
  constructor
  · decide +kernel
  · show Holds _ _
    have h1 : midway.lexer.cache = some (some b!"vn") := by decide +kernel
    have h2 : Spec.tokens midway.lexer.inner.rest = [b!"4", b!"5", b!"6", b!"\n"] := by decide +kernel
    simp only [Holds, h1, h2]

/-- There, the method for `vt` statements fails in the words of C74; the one for `vn` takes four
tokens. -/
example : ((Obj.parse_texture_vertex : Obj.OP PeekableLexer (Obj.TextureVertex Bytes)) midway).1 =
      .err ⟨2, .ExpectedTagStatement, b!"Expected `vt` but got `vn` instead."⟩ ∧
    ((Obj.parse_normal_vertex : Obj.OP PeekableLexer (Obj.NormalVertex Bytes)) midway).1 =
      .ok ⟨b!"4", b!"5", b!"6"⟩ := by decide +kernel

example : Leaves (Obj.parse_object_name 9) midway 2 [b!"vn", b!"4", b!"5", b!"6", b!"\n"] [] :=
  (C74_optional (F := Bytes) debug 9 midway 2 _ midway_before).2.1 (by decide)

/-- Seven vertices so far, three of them in this object: `6` is its second vertex, `4` is not its. -/
example (s : PState PeekableLexer) : Obj.calculate_index debug (4, 7) 6 s = (.ok 1, s) :=
  ((C74_index debug 4 7 6 s (by omega) (by decide)).1 1).2 (by decide)

example (s : PState PeekableLexer) :
    Obj.calculate_index debug (0, 7) (-2 ^ 63) s = (.panic .indexSubOverflow, s) := by
  have h := (C74_index debug 0 7 (-2 ^ 63) s (by omega) (by decide)).2 (by decide)
  rwa [if_pos (by decide)] at h

end Verif.Props
