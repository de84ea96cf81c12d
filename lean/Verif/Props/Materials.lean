import Verif.Props.Samples
import Verif.Proofs.MtlLines

/-!
# Properties C29–C33: MTL files
-/

namespace Verif.Props

open Verif Verif.Mtl Verif.Spec Verif.Spec.Mtl

variable {F : Type} [FloatSem F] {input : Bytes}

/-! ## C29 -/

/-- **C29** `mtl::parse` succeeds exactly on the token sequences of the grammar
`Spec.Mtl.FileOk`, and then returns what the file denotes. -/
theorem C29_language (r : MaterialSet F) :
    Mtl.parse input = .ok r ↔ ∃ mats, FileOk (tokens input) mats ∧ r = meaning mats :=
  parse_ok_iff

/-- **C29** The grammar is unambiguous. -/
theorem C29_unambiguous {toks : List Tok} {mats mats' : List MatAst} (h : FileOk toks mats)
    (h' : FileOk toks mats') : mats = mats' :=
  file_unique h h'

/-- **C29** The rejected texts, with the error reported for each. -/
theorem C29_errors (e : ParseError ErrorKind) :
    (Mtl.parse input : Out ErrorKind (MaterialSet F)) = .err e ↔
      ∃ unread, FileErr (tokens input) e.kind e.message unread ∧
        e.line_number = 1 + nls (tokens input) - nls unread :=
  parse_err_iff

/-- A file with two materials, statements in any order, several on a line, one repeated. -/
def mtlSample : Bytes :=
  b!"# comment\n\nnewmtl one\nKa 1 2 3 Kd 4 5 6\nillum 1\nmap_Bump x.png\nNs 10\nKa 7 8 9\nbump y.png\n" ++
  b!"newmtl two\nd 0.5\nNi 1.5\nillum 0\nmap_d m\n"

def mtlSampleResult : MaterialSet Bytes where
  materials :=
    [{ (Material.new : Material Bytes) with
       name := b!"one"
       color_ambient := ⟨b!"7", b!"8", b!"9"⟩
       color_diffuse := ⟨b!"4", b!"5", b!"6"⟩
       specular_exponent := b!"10"
       illumination_model := .AmbientDiffuse
       map_bump := some b!"y.png" },
     { (Material.new : Material Bytes) with
       name := b!"two"
       dissolve := b!"0.5"
       optical_density := some b!"1.5"
       illumination_model := .Ambient
       map_dissolve := some b!"m" }]

theorem mtlSample_parses : Mtl.parse mtlSample = .ok mtlSampleResult := by decide +kernel

example : ∃ mats, FileOk (tokens mtlSample) mats ∧ mtlSampleResult = meaning mats :=
  (C29_language _).mp mtlSample_parses

/-! ## C30 -/

/-- The attributes of a material. -/
inductive Attr where
  | color (slot : ColorSlot)
  | num (slot : NumSlot)
  | illum
  | map (slot : MapSlot)
deriving DecidableEq, Repr

/-- The attribute a statement is about. -/
def attr : Item → Attr
  | .color s _ _ _ => .color s
  | .num s _ => .num s
  | .illum _ => .illum
  | .map s _ => .map s

def colorOf (m : Material F) : ColorSlot → Color F
  | .ambient => m.color_ambient
  | .diffuse => m.color_diffuse
  | .specular => m.color_specular
  | .emissive => m.color_emissive

def mapOf (m : Material F) : MapSlot → Option Bytes
  | .ambient => m.map_ambient
  | .diffuse => m.map_diffuse
  | .specular => m.map_specular
  | .emissive => m.map_emissive
  | .exponent => m.map_specular_exponent
  | .bump => m.map_bump
  | .displacement => m.map_displacement
  | .dissolve => m.map_dissolve
  | .decal => m.map_decal

/-- The material has the value given by the statement. -/
def HasValue (m : Material F) : Item → Prop
  | .color s r g b => colorOf m s = ⟨FloatSem.value r, FloatSem.value g, FloatSem.value b⟩
  | .num .dissolve x => m.dissolve = FloatSem.value x
  | .num .exponent x => m.specular_exponent = FloatSem.value x
  | .num .density x => m.optical_density = some (FloatSem.value x)
  | .illum model => m.illumination_model = model
  | .map s name => mapOf m s = some name

/-- The attribute has its documented default. -/
def HasDefault (m : Material F) : Attr → Prop
  | .color s => colorOf m s = ⟨FloatSem.zero, FloatSem.zero, FloatSem.zero⟩
  | .num .dissolve => m.dissolve = FloatSem.one
  | .num .exponent => m.specular_exponent = FloatSem.zero
  | .num .density => m.optical_density = none
  | .illum => m.illumination_model = .AmbientDiffuseSpecular
  | .map s => mapOf m s = none

theorem last_of {α β : Type} {f : α → Option β} {pre post : List α} {x : α} {y : β} (hx : f x = some y)
    (hp : ∀ z ∈ post, f z = none) : last f (pre ++ x :: post) = some y := by
  have : post.filterMap f = [] := List.filterMap_eq_nil_iff.mpr hp
  simp [last, List.filterMap_append, hx, this]

theorem last_none {α β : Type} {f : α → Option β} {l : List α} (h : ∀ z ∈ l, f z = none) : last f l = none := by
  have : l.filterMap f = [] := List.filterMap_eq_nil_iff.mpr h
  simp [last, this]

theorem color?_none {s : ColorSlot} {z : Item} (h : attr z ≠ .color s) : Item.color? (F := F) s z = none := by
  cases z <;> simp_all [attr, Item.color?]

theorem num?_none {s : NumSlot} {z : Item} (h : attr z ≠ .num s) : Item.num? (F := F) s z = none := by
  cases z <;> simp_all [attr, Item.num?]

theorem illum?_none {z : Item} (h : attr z ≠ .illum) : Item.illum? z = none := by
  cases z <;> simp_all [attr, Item.illum?]

theorem map?_none {s : MapSlot} {z : Item} (h : attr z ≠ .map s) : Item.map? s z = none := by
  cases z <;> simp_all [attr, Item.map?]

theorem colorOf_meaning (m : MatAst) (s : ColorSlot) :
    colorOf (matMeaning m : Material F) s =
      (last (Item.color? s) m.items).getD ⟨FloatSem.zero, FloatSem.zero, FloatSem.zero⟩ := by
  cases s <;> rfl

theorem mapOf_meaning (m : MatAst) (s : MapSlot) :
    mapOf (matMeaning m : Material F) s = last (Item.map? s) m.items := by
  cases s <;> rfl

/-- **C30** The last statement about an attribute decides its value: if the statements of the
material are `pre`, `it`, `post` and none of `post` is about the attribute of `it`, then the
material has the value given by `it`. -/
theorem C30_last_wins {r : MaterialSet F} (h : Mtl.parse input = .ok r) {mats : List MatAst}
    (hf : FileOk (tokens input) mats) {j : Nat} {ast : MatAst} (ha : mats[j]? = some ast)
    {pre post : List Item} {it : Item} (hi : ast.items = pre ++ it :: post)
    (hp : ∀ x ∈ post, attr x ≠ attr it) :
    ∃ m, r.materials[j]? = some m ∧ m.name = ast.name ∧ HasValue m it := by
  rw [parse_ok_of hf] at h
  simp only [Out.ok.injEq] at h
  refine ⟨matMeaning ast, by rw [← h]; simp [meaning, ha], rfl, ?_⟩
  cases it with
  | color s x g b =>
    rw [HasValue, colorOf_meaning, hi, last_of (y := ⟨FloatSem.value x, FloatSem.value g, FloatSem.value b⟩)
      (by simp [Item.color?]) (fun z hz => color?_none (hp z hz))]
    rfl
  | num s x =>
    have : last (Item.num? (F := F) s) ast.items = some (FloatSem.value x) := by
      rw [hi, last_of (y := FloatSem.value x) (by simp [Item.num?]) (fun z hz => num?_none (hp z hz))]
    cases s <;> simp only [HasValue, matMeaning, this, Option.getD_some]
  | illum model =>
    rw [HasValue]
    simp only [matMeaning]
    rw [hi, last_of (x := Item.illum model) (y := model) rfl (fun z hz => illum?_none (hp z hz))]
    rfl
  | map s name =>
    rw [HasValue, mapOf_meaning, hi,
      last_of (y := name) (by simp [Item.map?]) (fun z hz => map?_none (hp z hz))]

/-- **C30** An attribute without a statement has its default. -/
theorem C30_default {r : MaterialSet F} (h : Mtl.parse input = .ok r) {mats : List MatAst}
    (hf : FileOk (tokens input) mats) {j : Nat} {ast : MatAst} (ha : mats[j]? = some ast) {a : Attr}
    (hp : ∀ x ∈ ast.items, attr x ≠ a) :
    ∃ m, r.materials[j]? = some m ∧ HasDefault m a := by
  rw [parse_ok_of hf] at h
  simp only [Out.ok.injEq] at h
  refine ⟨matMeaning ast, by rw [← h]; simp [meaning, ha], ?_⟩
  cases a with
  | color s =>
    rw [HasDefault, colorOf_meaning, last_none (fun z hz => color?_none (hp z hz))]
    rfl
  | num s =>
    have : last (Item.num? (F := F) s) ast.items = none := last_none (fun z hz => num?_none (hp z hz))
    cases s <;> simp only [HasDefault, matMeaning, this, Option.getD_none]
  | illum =>
    rw [HasDefault]
    simp only [matMeaning]
    rw [last_none (fun z hz => illum?_none (hp z hz))]
    rfl
  | map s => rw [HasDefault, mapOf_meaning, last_none (fun z hz => map?_none (hp z hz))]

/-- **C30** There are no other materials. -/
theorem C30_materials {r : MaterialSet F} (h : Mtl.parse input = .ok r) {mats : List MatAst}
    (hf : FileOk (tokens input) mats) : r.materials.map Material.name = mats.map MatAst.name := by
  rw [parse_ok_of hf] at h
  simp only [Out.ok.injEq] at h
  rw [← h]
  simp only [meaning, List.map_map]
  rfl

/-! ## C31 -/

theorem last_swap {α β : Type} (f : α → Option β) (pre post : List α) {x y : α} (h : f x = none ∨ f y = none) :
    last f (pre ++ x :: y :: post) = last f (pre ++ y :: x :: post) := by
  simp only [last, List.filterMap_append, List.filterMap_cons]
  rcases h with h | h <;> rw [h]

theorem matMeaning_swap (name : Bytes) (pre post : List Item) {x y : Item} (h : attr x ≠ attr y) :
    (matMeaning ⟨name, pre ++ x :: y :: post⟩ : Material F) = matMeaning ⟨name, pre ++ y :: x :: post⟩ := by
  have hc : ∀ s, last (Item.color? (F := F) s) (pre ++ x :: y :: post) =
      last (Item.color? s) (pre ++ y :: x :: post) := by
    intro s
    refine last_swap _ _ _ ?_
    by_cases hx : attr x = .color s
    · exact .inr (color?_none (fun hy => h (hx.trans hy.symm)))
    · exact .inl (color?_none hx)
  have hn : ∀ s, last (Item.num? (F := F) s) (pre ++ x :: y :: post) =
      last (Item.num? s) (pre ++ y :: x :: post) := by
    intro s
    refine last_swap _ _ _ ?_
    by_cases hx : attr x = .num s
    · exact .inr (num?_none (fun hy => h (hx.trans hy.symm)))
    · exact .inl (num?_none hx)
  have hi : last Item.illum? (pre ++ x :: y :: post) = last Item.illum? (pre ++ y :: x :: post) := by
    refine last_swap _ _ _ ?_
    by_cases hx : attr x = .illum
    · exact .inr (illum?_none (fun hy => h (hx.trans hy.symm)))
    · exact .inl (illum?_none hx)
  have hm : ∀ s, last (Item.map? s) (pre ++ x :: y :: post) = last (Item.map? s) (pre ++ y :: x :: post) := by
    intro s
    refine last_swap _ _ _ ?_
    by_cases hx : attr x = .map s
    · exact .inr (map?_none (fun hy => h (hx.trans hy.symm)))
    · exact .inl (map?_none hx)
  simp only [matMeaning, hc, hn, hi, hm]

/-- **C31** Two lines with one statement each, about different attributes, may be swapped:
result, error and line of the error stay the same.  (Before the first `newmtl` statements
are not allowed, and the error names the first of them.) -/
theorem C31_swap {a b l₁ l₂ : Bytes} {x y : Item} (ha : b!"newmtl" ∈ tokens a)
    (hx : Stmt x (tokens l₁) []) (hy : Stmt y (tokens l₂) []) (hxy : attr x ≠ attr y) :
    (Mtl.parse (a ++ 10 :: (l₁ ++ 10 :: (l₂ ++ 10 :: b))) : Out ErrorKind (MaterialSet F)) =
      Mtl.parse (a ++ 10 :: (l₂ ++ 10 :: (l₁ ++ 10 :: b))) := by
  have e1 : tokens (a ++ 10 :: (l₁ ++ 10 :: (l₂ ++ 10 :: b))) =
      tokens a ++ nl :: (tokens l₁ ++ nl :: (tokens l₂ ++ nl :: tokens b)) := by
    simp only [tokens_append_nl]
  have e2 : tokens (a ++ 10 :: (l₂ ++ 10 :: (l₁ ++ 10 :: b))) =
      tokens a ++ nl :: (tokens l₂ ++ nl :: (tokens l₁ ++ nl :: tokens b)) := by
    simp only [tokens_append_nl]
  have hn : nls (tokens (a ++ 10 :: (l₁ ++ 10 :: (l₂ ++ 10 :: b)))) =
      nls (tokens (a ++ 10 :: (l₂ ++ 10 :: (l₁ ++ 10 :: b)))) := by
    rw [e1, e2]
    simp only [nls, List.count_append, List.count_cons]
    omega
  obtain ⟨bx, lx, ex, -, rx⟩ := stmt_shape hx
  obtain ⟨by', ly, ey, -, ry⟩ := stmt_shape hy
  rcases file_line (tokens a) with ⟨k, m, u, h⟩ | ⟨done, name, items, h⟩ | h
  · have h1 := h (tokens l₁ ++ nl :: (tokens l₂ ++ nl :: tokens b))
    have h2 := h (tokens l₂ ++ nl :: (tokens l₁ ++ nl :: tokens b))
    rw [← e1] at h1
    rw [← e2] at h2
    rw [parse_err_of h1, parse_err_of h2, hn]
    simp only [Out.err.injEq, ParseError.mk.injEq, and_true]
    congr 1
    simp only [nls, List.count_append, List.count_cons]
    omega
  · have key : ∀ {bx lx by' ly} {x y : Item} {T : List Tok},
        (∀ rest, Stmt x (bx ++ lx :: rest) rest) → (∀ rest, Stmt y (by' ++ ly :: rest) rest) →
        T = tokens a ++ nl :: ((bx ++ [lx]) ++ nl :: ((by' ++ [ly]) ++ nl :: tokens b)) →
        At T done name (items ++ [x] ++ [y]) (tokens b) := by
      intro bx lx by' ly x y T rx ry eT
      have h1 := h ((bx ++ [lx]) ++ nl :: ((by' ++ [ly]) ++ nl :: tokens b))
      rw [← eT] at h1
      have h2 : At T done name (items ++ [x]) (nl :: ((by' ++ [ly]) ++ nl :: tokens b)) :=
        .stmt h1 (by simpa using rx (nl :: ((by' ++ [ly]) ++ nl :: tokens b)))
      have h3 : At T done name (items ++ [x] ++ [y]) (nl :: tokens b) :=
        .stmt (.blank h2) (by simpa using ry (nl :: tokens b))
      exact .blank h3
    have h1 := key rx ry (T := tokens (a ++ 10 :: (l₁ ++ 10 :: (l₂ ++ 10 :: b)))) (by rw [e1, ex, ey])
    have h2 := key ry rx (T := tokens (a ++ 10 :: (l₂ ++ 10 :: (l₁ ++ 10 :: b)))) (by rw [e2, ex, ey])
    rcases body_total (tokens b) with ⟨items', rest, hb⟩ | ⟨k, m, rest, hb⟩
    · rcases mats_total (body_end hb) with ⟨mats, hm⟩ | ⟨k, m, rest', hm⟩
      · rw [parse_ok_of (at_ok h1 hb hm), parse_ok_of (at_ok h2 hb hm)]
        simp only [meaning, List.map_append, List.map_cons, List.append_assoc, List.cons_append, List.nil_append]
        rw [matMeaning_swap name items items' hxy]
      · rw [parse_err_of (at_later h1 hb hm), parse_err_of (at_later h2 hb hm), hn]
    · rw [parse_err_of (at_err h1 hb), parse_err_of (at_err h2 hb), hn]
  · exact absurd (h _ ha) (by decide)

example : b!"newmtl" ∈ tokens b!"# x\nnewmtl m\nd 1" ∧ Stmt (.color .ambient b!"1" b!"2" b!"3") (tokens b!"Ka 1 2 3") [] ∧
    Stmt (.map .bump b!"t.png") (tokens b!"bump t.png # note") [] ∧
    attr (.color .ambient b!"1" b!"2" b!"3") ≠ attr (.map .bump b!"t.png") := by
  have e1 : tokens b!"Ka 1 2 3" = [ColorSlot.ambient.tag, b!"1", b!"2", b!"3"] := by decide +kernel
  have e2 : tokens b!"bump t.png # note" = [b!"bump", b!"t.png"] := by decide +kernel
  refine ⟨by decide +kernel, ?_, ?_, by decide⟩
  · rw [e1]; exact .color (by decide) (by decide) (by decide)
  · rw [e2]; exact .map (by decide)

/-! ## C32 -/

/-- **C32** Two accepted texts, with a newline between them, parse to the materials of the first
followed by those of the second. -/
theorem C32_concatenation {a b : Bytes} {r s : MaterialSet F} (ha : Mtl.parse a = .ok r)
    (hb : Mtl.parse b = .ok s) :
    Mtl.parse (a ++ 10 :: b) = .ok ⟨r.materials ++ s.materials⟩ := by
  obtain ⟨ma, hfa, rfl⟩ := parse_ok_iff.mp ha
  obtain ⟨mb, hfb, rfl⟩ := parse_ok_iff.mp hb
  have h := file_append hfa hfb
  rw [← tokens_append_nl] at h
  rw [parse_ok_of h]
  simp [meaning]

example : Mtl.parse (mtlSample ++ 10 :: mtlSample) =
    .ok (⟨mtlSampleResult.materials ++ mtlSampleResult.materials⟩ : MaterialSet Bytes) :=
  C32_concatenation mtlSample_parses mtlSample_parses

/-! ## C33 -/

theorem fails_at {a b : Bytes} {t : Tok} {X : List Tok} (hb : tokens b = t :: X) (h1 : t ≠ nl) (h2 : t ≠ b!"newmtl")
    (hbad : ∃ k m rest, StmtErr (t :: X) k m rest) :
    ∃ e, (Mtl.parse (a ++ 10 :: b) : Out ErrorKind (MaterialSet F)) = .err e := by
  have e : tokens (a ++ 10 :: b) = tokens a ++ nl :: t :: X := by rw [tokens_append_nl, hb]
  rcases file_line (tokens a) with ⟨k, m, u, h⟩ | ⟨done, name, items, h⟩ | h
  · have := h (t :: X)
    rw [← e] at this
    exact ⟨_, parse_err_of this⟩
  · obtain ⟨k, m, rest, hs⟩ := hbad
    have := at_err (h (t :: X)) (.here hs)
    rw [← e] at this
    exact ⟨_, parse_err_of this⟩
  · have : ∀ A : List Tok, (∀ x ∈ A, x = nl) →
        FileErr (A ++ nl :: t :: X) .ExpectedEndOfInput (trailingText t) (t :: X) := by
      intro A hA
      induction A with
      | nil => exact .blank (.trailing h1 h2)
      | cons x A ih =>
        rw [hA x (by simp)]
        exact .blank (ih fun y hy => hA y (List.mem_cons_of_mem _ hy))
    have := this (tokens a) h
    rw [← e] at this
    exact ⟨_, parse_err_of this⟩

theorem tokens_cons {b : Bytes} {t : Tok} (h : (tokens b).head? = some t) : ∃ X, tokens b = t :: X := by
  cases hx : tokens b with
  | nil => rw [hx] at h; cases h
  | cons t' X =>
    rw [hx] at h
    simp only [List.head?_cons, Option.some.injEq] at h
    exact ⟨X, by rw [h]⟩

/-- The words with which a line of an MTL file can start. -/
def mtlWords : List Tok :=
  [b!"newmtl", b!"Ka", b!"Kd", b!"Ks", b!"Ke", b!"d", b!"Ns", b!"Ni", b!"illum", b!"map_Ka", b!"map_Kd",
    b!"map_Ks", b!"map_Ke", b!"map_Ns", b!"map_Bump", b!"bump", b!"disp", b!"map_d", b!"decal", nl]

theorem not_keyword {t : Tok} (h : t ∉ mtlWords) : ¬ IsKeyword t := by
  rintro (⟨s, rfl⟩ | ⟨s, rfl⟩ | rfl | ⟨s, hs⟩)
  · exact h (by cases s <;> decide)
  · exact h (by cases s <;> decide)
  · exact h (by decide)
  · have : ∀ x ∈ s.tags, x ∈ mtlWords := by cases s <;> decide
    exact h (this t hs)

/-- **C33** A line starting with an unknown word makes `mtl::parse` fail. -/
theorem C33_unknown_statement {a b : Bytes} {t : Tok} (hb : (tokens b).head? = some t) (ht : t ∉ mtlWords) :
    ∃ e, (Mtl.parse (a ++ 10 :: b) : Out ErrorKind (MaterialSet F)) = .err e := by
  obtain ⟨X, hX⟩ := tokens_cons hb
  have h1 : t ≠ nl := by rintro rfl; exact ht (by decide)
  have h2 : t ≠ b!"newmtl" := by rintro rfl; exact ht (by decide)
  exact fails_at hX h1 h2 ⟨_, _, _, .unknown (not_keyword ht) h1 h2⟩

example : (tokens b!" Tf 1 1 1\nKa 1 1 1").head? = some b!"Tf" ∧ b!"Tf" ∉ mtlWords := by decide +kernel

/-- **C33** An unknown word is also rejected in the middle of a line, with this error. -/
theorem C33_unknown_anywhere {done name items t rest} (hat : At (tokens input) done name items (t :: rest))
    (ht : t ∉ mtlWords) :
    ∃ line, (Mtl.parse input : Out ErrorKind (MaterialSet F)) =
      .err ⟨line, .ErrorParsingMaterial, b!"Could not parse the token `" ++ t ++ b!"`."⟩ := by
  have h1 : t ≠ nl := by rintro rfl; exact ht (by decide)
  have h2 : t ≠ b!"newmtl" := by rintro rfl; exact ht (by decide)
  exact ⟨_, parse_err_of (at_err hat (.here (.unknown (not_keyword ht) h1 h2)))⟩

/-- **C33** An `illum` line whose argument is not 0, 1 or 2 makes `mtl::parse` fail. -/
theorem C33_illumination {a b : Bytes} {t : Tok} {rest : List Tok} (hb : tokens b = b!"illum" :: t :: rest)
    (ht : parseUsize t ≠ some 0 ∧ parseUsize t ≠ some 1 ∧ parseUsize t ≠ some 2) :
    ∃ e, (Mtl.parse (a ++ 10 :: b) : Out ErrorKind (MaterialSet F)) = .err e := by
  refine fails_at hb (by decide) (by decide) ?_
  cases hn : parseUsize t with
  | none => exact ⟨_, _, _, .illum_bad hn⟩
  | some n =>
    refine ⟨_, _, _, .illum_unknown hn ?_⟩
    rw [hn] at ht
    simp only [ne_eq, Option.some.injEq] at ht
    omega

example : Mtl.parse (b!"newmtl a" ++ 10 :: b!"illum 3\n") =
    (.err ⟨2, .UnknownIlluminationModel, b!"Unknown illumination model: 3."⟩ :
      Out ErrorKind (MaterialSet Bytes)) := by decide +kernel

/-- **C33** Text before the first `newmtl` is reported, on its line. -/
theorem C33_text_before_newmtl {n : Nat} {t : Tok} {rest : List Tok}
    (e : tokens input = List.replicate n nl ++ t :: rest) (h1 : t ≠ nl) (h2 : t ≠ b!"newmtl") :
    (Mtl.parse input : Out ErrorKind (MaterialSet F)) =
      .err ⟨1 + n, .ExpectedEndOfInput, b!"Expected end of input but got `" ++ t ++ b!"`."⟩ := by
  have : ∀ n, FileErr (List.replicate n nl ++ t :: rest) .ExpectedEndOfInput (trailingText t) (t :: rest) := by
    intro n
    induction n with
    | zero => exact .trailing h1 h2
    | succ n ih => exact .blank ih
  have h := this n
  rw [← e] at h
  rw [parse_err_of h, e, nls_append]
  simp only [trailingText, nls, List.count_replicate_self, Out.err.injEq, ParseError.mk.injEq, and_true]
  omega

example : tokens b!"\n# c\n  Ka 1 1 1\n" = List.replicate 2 nl ++ b!"Ka" :: [b!"1", b!"1", b!"1", nl] := by
  decide +kernel

end Verif.Props
