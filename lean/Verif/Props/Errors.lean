import Verif.Proofs.Floats
import Verif.Props.RoundTrip
import Verif.Props.Robust

/-!
# Properties C68 and C69

Which tokens are floating point numbers; which errors there are and what they say.
-/

namespace Verif.Props

open Verif Verif.Spec

variable {F : Type} [FloatSem F] {cfg : Obj.Cfg} {input : Bytes}

/-! ## C68 -/

/-- **C68** `obj::Parser::parse_f64` accepts a token exactly if it is a floating point number:
a sign or none; then digits with at most one point among them, and perhaps an exponent, or one of
three words. What it returns is the value of that token. -/
theorem C68_float_obj (line : Nat) (t : Tok) (rest : List Tok) (x : F) :
    (Obj.parse_f64 ⟨line, t :: rest⟩ : Out Obj.ErrorKind F × PState (List Tok)).1 = .ok x ↔
      FloatToken t ∧ x = FloatSem.value t := by
  rw [← isFloat_iff]
  obtain ⟨l', -, e⟩ := (Obj.next_string_cons t rest).run line
  unfold Obj.parse_f64
  show (P.bind _ _ _).1 = _ ↔ _
  simp only [P.bind, e, Res.at]
  by_cases h : isFloat t = true
  · simp only [parseF64, h, if_true, true_and]
    show Out.ok _ = Out.ok _ ↔ _
    simp [eq_comm]
  · simp [parseF64, h, P.error]

/-- **C68** The same for `mtl::Parser::parse_f64`. -/
theorem C68_float_mtl (line : Nat) (t : Tok) (rest : List Tok) (x : F) :
    (Mtl.parse_f64 ⟨line, t :: rest⟩ : Out Mtl.ErrorKind F × PState (List Tok)).1 = .ok x ↔
      FloatToken t ∧ x = FloatSem.value t := by
  rw [← isFloat_iff]
  obtain ⟨l', -, e⟩ := (Mtl.next_string_cons t rest).run line
  unfold Mtl.parse_f64
  show (P.bind _ _ _).1 = _ ↔ _
  simp only [P.bind, e, Res.at]
  by_cases h : isFloat t = true
  · simp only [parseF64, h, if_true, true_and]
    show Out.ok _ = Out.ok _ ↔ _
    simp [eq_comm]
  · simp [parseF64, h, P.error]

/-- **C68** An index is also a floating point number, of the same spelling. -/
theorem C68_integers_are_floats {t : Tok} {i : Int} (h : parseIsize t = some i) : FloatToken t := by
  obtain ⟨ds, n, hd, h, -⟩ := parseIsize_iff.mp h
  have hds : Mantissa ds := .inl ⟨hd.2.1, hd.1⟩
  rcases h with ⟨rfl | rfl, -⟩ | ⟨rfl, -⟩
  · exact ⟨[], t, rfl, .inl rfl, .inl ⟨t, [], by simp, hds, .inl rfl⟩⟩
  · exact ⟨b!"+", ds, rfl, .inr (.inl rfl), .inl ⟨ds, [], by simp, hds, .inl rfl⟩⟩
  · exact ⟨b!"-", ds, rfl, .inr (.inr rfl), .inl ⟨ds, [], by simp, hds, .inl rfl⟩⟩

/-- Numbers and no numbers. -/
example : (∀ t ∈ [b!"1", b!"-1.5e+10", b!".5", b!"5.", b!"+iNf", b!"NaN", b!"1E3", b!"-infinity"],
      isFloat t = true) ∧
    ∀ t ∈ [b!"", b!".", b!"e5", b!"1e", b!"1,5", b!"--1", b!"0x10", b!"1.2.3", b!"infin", b!"1f"],
      isFloat t = false := by
  decide +kernel

example : FloatToken b!"-1.5e+10" :=
  ⟨b!"-", b!"1.5e+10", rfl, .inr (.inr rfl), .inl ⟨b!"1.5", b!"e+10", rfl,
    .inr ⟨b!"1", b!"5", rfl, by unfold DigitsStar; decide, by unfold DigitsStar; decide, by decide⟩,
    .inr ⟨b!"e", b!"+", b!"10", rfl, .inl rfl, .inr (.inl rfl), by unfold DigitsStar; decide, by decide⟩⟩⟩

/-! ## C69 -/

/-- What an error of `obj::parse` of a text with these tokens can say. -/
inductive ObjReport (toks : List Tok) : Obj.ErrorKind → Bytes → Prop
  | eof : ObjReport toks .EndOfFile
      b!"Reached the end of the input in the process of getting the next token."
  | tag {t} : t ∈ toks → t ≠ nl → ObjReport toks .ExpectedTagStatement
      (b!"Expected `" ++ nl ++ b!"` but got `" ++ t ++ b!"` instead.")
  | float {t} : t ∈ toks → ¬ FloatToken t → ObjReport toks .ExpectedFloat
      (b!"Expected a floating point number but got `" ++ t ++ b!"` instead.")
  | int {t p} : t ∈ toks → (p = t ∨ p ∈ splitByte 47 t) → parseIsize p = none →
      ObjReport toks .ExpectedInteger (b!"Expected an integer but got `" ++ p ++ b!"` instead.")
  | reference {t} : t ∈ toks → ((splitByte 47 t).head? = some [] ∨ 3 < (splitByte 47 t).length) →
      ObjReport toks .ExpectedVTNIndex
        (b!"Expected a `vertex/texture/normal` index but got `" ++ t ++ b!"` instead.")
  | range {lo hi : Nat} {i : Int} : lo ≤ hi → (i < lo ∨ hi ≤ i) →
      ObjReport toks .VTNIndexOutOfRange
        (b!"Expected index in range [" ++ showNat lo ++ b!", " ++ showNat hi ++
          b!"), but got " ++ showInt i ++ b!".")
  | few : b!"f" ∈ toks → ObjReport toks .EveryFaceElementMustHaveAtLeastThreeVertices
      b!"A face primitive must have at least three vertices."
  | mixed_line : b!"l" ∈ toks → ObjReport toks .EveryVTNIndexMustHaveTheSameFormForAGivenElement
      b!"Every VTN index for a line must have the same form."
  | mixed_face : b!"f" ∈ toks → ObjReport toks .EveryVTNIndexMustHaveTheSameFormForAGivenElement
      b!"Every VTN index for a face must have the same form."
  | smoothing {t} : t ∈ toks → t ≠ b!"off" → parseUsize t = none →
      ObjReport toks .SmoothingGroupNameMustBeOffOrInteger
        (b!"A smoothing group name must either be `off`, which denotes that an object has no smoothing groups, or an integer. The parser got `"
          ++ t ++ b!"` instead.")
  | no_smoothing : b!"s" ∈ toks → ObjReport toks .SmoothingGroupDeclarationHasNoName
      b!"Got a smoothing group declaration without a smoothing group name."
  | no_material : b!"usemtl" ∈ toks → ObjReport toks .MaterialStatementHasNoName
      b!"Got a `usemtl` material declaration without a material name."
  | unknown {t} : t ∈ toks →
      t ∉ [b!"v", b!"vt", b!"vn", b!"g", b!"s", b!"usemtl", b!"p", b!"l", b!"f", nl, b!"o"] →
      ObjReport toks .InvalidObjectStatement (b!"Unsupported or invalid object statement `" ++ t ++ b!"`.")

theorem ObjReport.mono {a b : List Tok} {k m} (h : ObjReport a k m) (hs : a <:+ b) : ObjReport b k m := by
  cases h with
  | eof => exact .eof
  | tag h1 h2 => exact .tag (hs.subset h1) h2
  | float h1 h2 => exact .float (hs.subset h1) h2
  | int h1 h2 h3 => exact .int (hs.subset h1) h2 h3
  | reference h1 h2 => exact .reference (hs.subset h1) h2
  | range h1 h2 => exact .range h1 h2
  | few h1 => exact .few (hs.subset h1)
  | mixed_line h1 => exact .mixed_line (hs.subset h1)
  | mixed_face h1 => exact .mixed_face (hs.subset h1)
  | smoothing h1 h2 h3 => exact .smoothing (hs.subset h1) h2 h3
  | no_smoothing h1 => exact .no_smoothing (hs.subset h1)
  | no_material h1 => exact .no_material (hs.subset h1)
  | unknown h1 h2 => exact .unknown (hs.subset h1) h2

theorem not_floatToken {t : Tok} (h : isFloat t = false) : ¬ FloatToken t := by
  rw [← isFloat_iff, h]
  simp

open Verif.Obj (Fits Small fits_next fits_zero)
open Verif.Obj (counts_add)

/-- Componentwise. -/
def Below (lo hi : Obj.Counts) : Prop := lo.v ≤ hi.v ∧ lo.vt ≤ hi.vt ∧ lo.vn ≤ hi.vn

theorem numErr_report {toks : List Tok} {lo hi : Nat} {t p : Tok} {k m} (h : Obj.NumErr cfg lo hi p k m)
    (ht : t ∈ toks) (hp : p = t ∨ p ∈ splitByte 47 t) (hb : lo ≤ hi) (hs : hi < 2 ^ 63) : ObjReport toks k m := by
  cases h with
  | notInt h => exact .int ht hp h
  | range i h1 h2 h3 =>
    refine .range hb ?_
    obtain ⟨ds, n, -, -, hl, hu⟩ := parseIsize_iff.mp h1
    unfold Obj.shownIndex Obj.wrap64
    split <;> omega

theorem piece_mem {t : Tok} {i : Nat} (h : Obj.piece t i ≠ []) : Obj.piece t i ∈ splitByte 47 t := by
  unfold Obj.piece Obj.pieces at *
  cases e : (splitByte 47 t)[i]? with
  | none => rw [e] at h; exact absurd rfl h
  | some p => exact List.mem_of_getElem? e

theorem refErr_report {toks : List Tok} {lo hi : Obj.Counts} {t : Tok} {k m} (h : Obj.RefErr cfg lo hi t k m)
    (ht : t ∈ toks) (hb : Below lo hi) (hs : Small hi) : ObjReport toks k m := by
  cases h with
  | v hp h => exact numErr_report h ht (.inr (piece_mem hp)) hb.1 hs.1
  | vt _ hp h => exact numErr_report h ht (.inr (piece_mem hp)) hb.2.1 hs.2.1
  | vn _ _ hp h => exact numErr_report h ht (.inr (piece_mem hp)) hb.2.2 hs.2.2
  | @shape o _ _ h1 _ _ h =>
    refine .reference ht ?_
    rcases h with rfl | h
    · left
      rcases h1 with ⟨h1, -⟩ | ⟨_, _, _, h⟩
      · unfold Obj.piece Obj.pieces at h1
        cases e : splitByte 47 t with
        | nil =>
          cases t with
          | nil => cases e
          | cons c t =>
            rw [splitByte] at e
            split at e
            · cases e
            · split at e <;> cases e
        | cons p ps =>
          rw [e] at h1
          exact congrArg some h1
      · cases h
    · exact .inr h

theorem stmtErr_report {lo hi : Obj.Counts} {toks k m rest} (h : Obj.StmtErr cfg lo hi toks k m rest)
    (hb : Below lo hi) (hs : Small hi) : ObjReport toks k m := by
  cases h with
  | v_eof => exact .eof
  | v_bad _ _ h => exact .float (by simp) (not_floatToken h)
  | vt_eof => exact .eof
  | vt_bad h => exact .float (by simp) (not_floatToken h)
  | vn_eof => exact .eof
  | vn_bad _ _ h => exact .float (by simp) (not_floatToken h)
  | s_eof => exact .no_smoothing (by simp)
  | @s_bad t _ h =>
    refine .smoothing (t := t) (by simp) ?_ ?_
    · rintro rfl; exact h 0 (.inl ⟨rfl, rfl⟩)
    · cases e : parseUsize t with
      | none => rfl
      | some n =>
        by_cases ho : t = b!"off"
        · exact absurd (.inl ⟨ho, rfl⟩) (h 0)
        · exact absurd (.inr ⟨ho, e⟩) (h n)
  | usemtl_eof => exact .no_material (by simp)
  | p_eof => exact .eof
  | @p_bad _ _ t _ _ _ _ h => exact numErr_report (t := t) h (by simp) (.inl rfl) hb.1 hs.1
  | l_eof => exact .eof
  | l_bad _ _ h => exact refErr_report h (by simp) hb hs
  | l_mixed => exact .mixed_line (by simp)
  | f_few => exact .few (by simp)
  | f_mixed => exact .mixed_face (by simp)
  | unknown h => exact .unknown (by simp) h

theorem below_step {lo hi : Obj.Counts} (h : Below lo hi) (it : Obj.Item) : Below lo (hi + it.counts) := by
  obtain ⟨h1, h2, h3⟩ := h
  rw [counts_add]
  exact ⟨by dsimp only; omega, by dsimp only; omega, by dsimp only; omega⟩

theorem bodyErr_report {lo hi : Obj.Counts} {toks k m rest} (h : Obj.BodyErr cfg lo hi toks k m rest)
    (hb : Below lo hi) (hs : Fits hi toks.length) : ObjReport toks k m := by
  induction h with
  | here h => exact stmtErr_report h hb hs.small
  | blank _ ih => exact (ih hb (hs.mono (by simp))).mono (List.suffix_cons _ _)
  | later h _ ih =>
    exact (ih (below_step hb _) (hs.step (Verif.Obj.Stmt.length_lt h) _)).mono (Obj.stmt_suffix h)

theorem headerErr_report {toks k m rest} (h : Obj.HeaderErr toks k m rest) : ObjReport toks k m := by
  cases h with
  | no_name => exact .eof
  | no_line => exact .eof
  | junk h => exact .tag (by simp) h

theorem objectsErr_report {lo : Obj.Counts} {toks k m rest} (h : Obj.ObjectsErr cfg lo toks k m rest)
    (hs : Fits lo toks.length) : ObjReport toks k m := by
  induction h with
  | header h => exact headerErr_report h
  | body hh h =>
    exact (bodyErr_report h ⟨le_refl _, le_refl _, le_refl _⟩
      (hs.mono (Obj.header_suffix hh).length_le)).mono (Obj.header_suffix hh)
  | later hh hb _ _ ih =>
    exact (ih (fits_next hh hb hs)).mono ((Obj.body_suffix hb).trans (Obj.header_suffix hh))

/-- **C69** Every error of `obj::parse` is one of those listed in `ObjReport`: kind and message
belong together, the token or piece quoted occurs in the text and is faulty, the number shown is
outside of the range shown. -/
theorem C69_obj_message (hlen : input.length < 2 ^ 63) {e : ParseError Obj.ErrorKind}
    (h : (Obj.parse cfg input : Out Obj.ErrorKind (Obj.ObjectSet F)) = .err e) :
    ObjReport (tokens input) e.kind e.message := by
  obtain ⟨rest, ⟨libs, mid, hl, ho⟩, -⟩ := (Obj.parse_err_iff hlen).mp h
  have hs := Obj.libs_suffix hl
  have := hs.length_le
  have := length_tokens_le input
  exact (objectsErr_report ho (fits_zero (by omega))).mono hs

theorem obj_err_any {e : ParseError Obj.ErrorKind} (hlen : input.length < 2 ^ 63)
    (h : (Obj.parse cfg input : Out Obj.ErrorKind (Obj.ObjectSet Bytes)) = .err e) :
    (Obj.parse cfg input : Out Obj.ErrorKind (Obj.ObjectSet F)) = .err e :=
  (Obj.parse_err_iff hlen).mpr ((Obj.parse_err_iff hlen).mp h)

/-- A text that is rejected with an error of this kind. -/
def objWitness : Obj.ErrorKind → Bytes
  | .EndOfFile => b!"v 1 2"
  | .ExpectedTagStatement => b!"o a b\n"
  | .ExpectedFloat => b!"v 1 2 c"
  | .ExpectedInteger => b!"p x"
  | .ExpectedVTNIndex => b!"l / /"
  | .VTNIndexOutOfRange => b!"p 1"
  | .EveryFaceElementMustHaveAtLeastThreeVertices => b!"v 0 0 0\nf 1 1\n"
  | .EveryVTNIndexMustHaveTheSameFormForAGivenElement => b!"v 0 0 0\nvt 0\nl 1 1/1\n"
  | .InvalidObjectStatement => b!"vp 1\n"
  | .ElementMustBeAPointLineOrFace => []
  | .SmoothingGroupNameMustBeOffOrInteger => b!"s on"
  | .SmoothingGroupDeclarationHasNoName => b!"s"
  | .MaterialStatementHasNoName => b!"usemtl"

/-- The kind of an error, if that is what it is. -/
def kindOf {K α : Type} : Out K α → Option K
  | .err e => some e.kind
  | _ => none

theorem kindOf_eq {K α : Type} {r : Out K α} {k : K} : kindOf r = some k ↔ ∃ e, r = .err e ∧ e.kind = k := by
  cases r <;> simp [kindOf]

/-- **C69** There are errors of all kinds but one: `ElementMustBeAPointLineOrFace` never occurs. -/
theorem C69_obj_kinds (k : Obj.ErrorKind) :
    (∃ input : Bytes, input.length < 2 ^ 63 ∧
      ∃ e, (Obj.parse cfg input : Out Obj.ErrorKind (Obj.ObjectSet F)) = .err e ∧ e.kind = k) ↔
      k ≠ .ElementMustBeAPointLineOrFace := by
  constructor
  · rintro ⟨input, hlen, e, h, rfl⟩ hk
    have := C69_obj_message hlen h
    rw [hk] at this
    cases this
  · intro hk
    have hl : (objWitness k).length < 2 ^ 63 := by
      cases k <;> decide
    have hw : kindOf (Obj.parse cfg (objWitness k) : Out Obj.ErrorKind (Obj.ObjectSet Bytes)) = some k := by
      obtain ⟨a, b⟩ := cfg
      cases k <;> first | exact absurd rfl hk | (cases a <;> cases b <;> decide +kernel)
    obtain ⟨e, h, rfl⟩ := kindOf_eq.mp hw
    exact ⟨_, hl, e, obj_err_any hl h, rfl⟩

/-- What an error of `mtl::parse` of a text with these tokens can say. -/
inductive MtlReport (toks : List Tok) : Mtl.ErrorKind → Bytes → Prop
  | eof : MtlReport toks .EndOfFile b!"Expected token but reached end of input."
  | no_map {t} : toks.getLast? = some t → t ∈ [b!"map_Ka", b!"map_Kd", b!"map_Ks", b!"map_Ke",
        b!"map_Ns", b!"map_Bump", b!"map_d", b!"bump", b!"disp", b!"decal"] → MtlReport toks .EndOfFile b!"Expected texture map name but got end of input."
  | no_name : toks.getLast? = some b!"newmtl" → MtlReport toks .EndOfFile b!"Expected material name but got end of input."
  | float {t} : t ∈ toks → ¬ FloatToken t → MtlReport toks .ExpectedFloat
      (b!"Expected floating point number but got " ++ t)
  | int {t} : t ∈ toks → parseUsize t = none → MtlReport toks .ExpectedInteger
      (b!"Expected integer but got " ++ t)
  | illum {t n} : t ∈ toks → parseUsize t = some n → 2 < n → MtlReport toks .UnknownIlluminationModel
      (b!"Unknown illumination model: " ++ showNat n ++ b!".")
  | unknown {t} : t ∈ toks → t ∉ [b!"Ka", b!"Kd", b!"Ks", b!"Ke", b!"Ns", b!"Ni", b!"d", b!"illum",
        b!"map_Ka", b!"map_Kd", b!"map_Ks", b!"map_Ke", b!"map_Ns", b!"map_Bump", b!"map_d", b!"bump",
        b!"disp", b!"decal", b!"newmtl", nl] →
      MtlReport toks .ErrorParsingMaterial (b!"Could not parse the token `" ++ t ++ b!"`.")
  | trailing {t} : t ∈ toks → t ≠ nl → t ≠ b!"newmtl" → MtlReport toks .ExpectedEndOfInput
      (b!"Expected end of input but got `" ++ t ++ b!"`.")

theorem getLast_of_suffix {α : Type} {a b : List α} {x : α} (hs : a <:+ b) (h : a.getLast? = some x) :
    b.getLast? = some x := by
  obtain ⟨c, rfl⟩ := hs
  rw [List.getLast?_append, h]
  rfl

theorem MtlReport.mono {a b : List Tok} {k m} (h : MtlReport a k m) (hs : a <:+ b) : MtlReport b k m := by
  cases h with
  | eof => exact .eof
  | no_map h h' => exact .no_map (getLast_of_suffix hs h) h'
  | no_name h => exact .no_name (getLast_of_suffix hs h)
  | float h1 h2 => exact .float (hs.subset h1) h2
  | int h1 h2 => exact .int (hs.subset h1) h2
  | illum h1 h2 h3 => exact .illum (hs.subset h1) h2 h3
  | unknown h1 h2 => exact .unknown (hs.subset h1) h2
  | trailing h1 h2 h3 => exact .trailing (hs.subset h1) h2 h3

theorem mtl_stmtErr_report {toks k m rest} (h : Mtl.StmtErr toks k m rest) : MtlReport toks k m := by
  cases h with
  | color_eof => exact .eof
  | color_bad _ _ h => exact .float (by simp) (not_floatToken h)
  | num_eof => exact .eof
  | num_bad h => exact .float (by simp) (not_floatToken h)
  | illum_eof => exact .eof
  | illum_bad h => exact .int (by simp) h
  | @illum_unknown t _ _ h1 h2 => exact .illum (t := t) (by simp) h1 h2
  | @map_eof s _ h =>
    refine .no_map rfl ?_
    cases s <;> simp only [Mtl.MapSlot.tags, List.mem_cons, List.not_mem_nil, or_false] at h <;>
      first | (subst h; decide) | (rcases h with rfl | rfl <;> decide)
  | @unknown t _ h1 h2 h3 =>
    refine .unknown (by simp) fun h => h1 ?_
    simp only [List.mem_cons, List.not_mem_nil, or_false] at h
    rcases h with rfl | rfl | rfl | rfl | rfl | rfl | rfl | rfl | rfl | rfl | rfl | rfl | rfl | rfl | rfl | rfl | rfl | rfl | h | h
    · exact .inl ⟨.ambient, rfl⟩
    · exact .inl ⟨.diffuse, rfl⟩
    · exact .inl ⟨.specular, rfl⟩
    · exact .inl ⟨.emissive, rfl⟩
    · exact .inr (.inl ⟨.exponent, rfl⟩)
    · exact .inr (.inl ⟨.density, rfl⟩)
    · exact .inr (.inl ⟨.dissolve, rfl⟩)
    · exact .inr (.inr (.inl rfl))
    · exact .inr (.inr (.inr ⟨.ambient, by decide⟩))
    · exact .inr (.inr (.inr ⟨.diffuse, by decide⟩))
    · exact .inr (.inr (.inr ⟨.specular, by decide⟩))
    · exact .inr (.inr (.inr ⟨.emissive, by decide⟩))
    · exact .inr (.inr (.inr ⟨.exponent, by decide⟩))
    · exact .inr (.inr (.inr ⟨.bump, by decide⟩))
    · exact .inr (.inr (.inr ⟨.dissolve, by decide⟩))
    · exact .inr (.inr (.inr ⟨.bump, by decide⟩))
    · exact .inr (.inr (.inr ⟨.displacement, by decide⟩))
    · exact .inr (.inr (.inr ⟨.decal, by decide⟩))
    · exact absurd h h3
    · exact absurd h h2

theorem mtl_bodyErr_report {toks k m rest} (h : Mtl.BodyErr toks k m rest) : MtlReport toks k m := by
  induction h with
  | here h => exact mtl_stmtErr_report h
  | blank _ ih => exact ih.mono (List.suffix_cons _ _)
  | later h _ ih => exact ih.mono (Mtl.stmt_suffix h)

theorem two_suffix {α : Type} (a b : α) (l : List α) : l <:+ a :: b :: l := ⟨[a, b], rfl⟩

theorem mtl_matsErr_report {toks k m rest} (h : Mtl.MatsErr toks k m rest) : MtlReport toks k m := by
  induction h with
  | no_name => exact .no_name rfl
  | body h => exact (mtl_bodyErr_report h).mono (two_suffix _ _ _)
  | later h _ ih => exact ih.mono ((Mtl.body_suffix h).trans (two_suffix _ _ _))

/-- **C69** Every error of `mtl::parse` is one of those listed in `MtlReport`. -/
theorem C69_mtl_message {e : ParseError Mtl.ErrorKind}
    (h : (Mtl.parse input : Out Mtl.ErrorKind (Mtl.MaterialSet F)) = .err e) :
    MtlReport (tokens input) e.kind e.message := by
  obtain ⟨rest, hf, -⟩ := Mtl.parse_err_iff.mp h
  generalize e.kind = k, e.message = m, tokens input = toks at hf
  induction hf with
  | blank _ ih => exact ih.mono (List.suffix_cons _ _)
  | trailing h1 h2 => exact .trailing (by simp) h1 h2
  | mats h => exact mtl_matsErr_report h

def mtlWitness : Mtl.ErrorKind → Bytes
  | .EndOfFile => b!"newmtl a\nKa 1"
  | .ExpectedTagStatement => []
  | .ExpectedFloat => b!"newmtl a\nKa 1 1\n"
  | .ExpectedInteger => b!"newmtl a\nillum x"
  | .ExpectedEndOfInput => b!"Ka 1 1 1\n"
  | .UnknownIlluminationModel => b!"newmtl a\nillum 3\n"
  | .ErrorParsingMaterial => b!"newmtl a\nTf 1 1 1\n"

/-- **C69** There are errors of all kinds but one: `ExpectedTagStatement` never occurs. -/
theorem C69_mtl_kinds (k : Mtl.ErrorKind) :
    (∃ input : Bytes, ∃ e, (Mtl.parse input : Out Mtl.ErrorKind (Mtl.MaterialSet F)) = .err e ∧ e.kind = k) ↔
      k ≠ .ExpectedTagStatement := by
  constructor
  · rintro ⟨input, e, h, rfl⟩ hk
    have := C69_mtl_message h
    rw [hk] at this
    cases this
  · intro hk
    have hw : kindOf (Mtl.parse (mtlWitness k) : Out Mtl.ErrorKind (Mtl.MaterialSet Bytes)) = some k := by
      cases k <;> first | exact absurd rfl hk | decide +kernel
    obtain ⟨e, h, rfl⟩ := kindOf_eq.mp hw
    exact ⟨_, e, Mtl.parse_err_iff.mpr (Mtl.parse_err_iff.mp h), rfl⟩

end Verif.Props
