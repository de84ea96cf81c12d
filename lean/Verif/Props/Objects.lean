import Verif.Props.Tables
import Verif.Proofs.ObjTop
import Verif.Proofs.ObjLines
import Verif.Proofs.ObjUnique
import Verif.Spec.Render

/-!
# Properties C23, C41, C45, C46: the objects of a file and the names in it
-/

namespace Verif.Props

open Verif Verif.Obj Verif.Spec Verif.Spec.Obj

variable {F : Type} [FloatSem F] {cfg : Cfg} {input : Bytes}

/-! ## C23 -/

theorem libs_cut {toks libs rest} (h : Libs toks libs rest) : ∃ head, toks = head ++ rest ∧ Libs head libs [] := by
  induction h with
  | done => exact ⟨[], rfl, .done (by simp) (by simp)⟩
  | blank _ ih =>
    obtain ⟨head, rfl, h⟩ := ih
    exact ⟨nl :: head, rfl, .blank h⟩
  | @line names mid toks libs rest h1 h2 h3 ih =>
    obtain ⟨head, e, h⟩ := ih
    rcases h2 with rfl | ⟨rfl, rfl⟩
    · subst e
      refine ⟨b!"mtllib" :: (names ++ nl :: head), by simp, .line h1 (.inl rfl) h⟩
    · obtain ⟨rfl, rfl⟩ := libs_nil h3
      exact ⟨b!"mtllib" :: (names ++ []), by simp, .line h1 (.inr ⟨rfl, rfl⟩) (.done (by simp) (by simp))⟩

theorem libs_rest {toks libs rest} (h : Libs toks libs rest) :
    rest.head? ≠ some nl ∧ rest.head? ≠ some b!"mtllib" := by
  induction h with
  | done h1 h2 => exact ⟨h1, h2⟩
  | blank _ ih => exact ih
  | line _ _ _ ih => exact ih

/-- The text of a named object. -/
def sectionToks (s : Bytes × List Tok) : List Tok := b!"o" :: s.1 :: nl :: s.2

/-- Consecutive objects with their bodies: `lo` is what has been defined before. -/
inductive Sections (cfg : Cfg) : Counts → List (Bytes × List Tok) → List ObjAst → Prop
  | nil {lo} : Sections cfg lo [] []
  | cons {lo name body items ss objs} : Body cfg lo lo items body [] → ¬ Bare items →
      Sections cfg (lo + countsOf items) ss objs →
      Sections cfg lo ((name, body) :: ss) (⟨name, items⟩ :: objs)

theorem body_end {lo hi : Counts} {items toks rest} (h : Body cfg lo hi items toks rest) : BodyEnd rest := by
  induction h with
  | done h => exact h
  | blank _ ih => exact ih
  | stmt _ _ ih => exact ih

theorem named_sections {lo : Counts} {objs toks} (h : Objects cfg lo objs toks) (hb : BodyEnd toks) :
    ∃ ss, toks = ss.flatMap sectionToks ∧ Sections cfg lo ss objs := by
  induction h with
  | done => exact ⟨[], rfl, .nil⟩
  | @obj lo name items objs toks mid rest hh hbody hn ho ih =>
    obtain ⟨ss, rfl, hs⟩ := ih (body_end hbody)
    obtain ⟨body, e, hc⟩ := body_cut hbody
    cases hh with
    | implicit h =>
      rcases hb with hb | hb
      · cases hb
      · exact absurd (by simpa using hb) h
    | named => exact ⟨(name, body) :: ss, by simp [sectionToks, e], .cons hc hn hs⟩

/-- **C23** The text of an accepted file is: `mtllib` and blank lines, the body of the
implicit object (possibly nothing), then `o name` lines with a body each.  The objects of the
result are, in order, the unnamed object if the implicit body is not empty, and one
object per `o` line with its name; each is the meaning of its own statements, which are
those of its own body. -/
theorem C23_objects (hlen : input.length < 2 ^ 63) {r : ObjectSet F} (h : Obj.parse cfg input = .ok r) :
    ∃ (head implicit : List Tok) (ss : List (Bytes × List Tok)) (asts : List ObjAst),
      tokens input = head ++ (implicit ++ ss.flatMap sectionToks) ∧
      Libs head r.material_libraries [] ∧
      (∀ t ∈ implicit.head?, t ≠ nl ∧ t ≠ b!"mtllib" ∧ t ≠ b!"o") ∧
      Sections cfg {} ((if implicit = [] then [] else [([], implicit)]) ++ ss) asts ∧
      r.objects.map Object.name = (if implicit = [] then [] else [[]]) ++ ss.map Prod.fst ∧
      r.objects.length = asts.length ∧
      ∀ (j : Nat) (ast : ObjAst), asts[j]? = some ast →
        r.objects[j]? = some (objMeaning (countsBefore asts j) ast) := by
  obtain ⟨file, hf, hr⟩ := (parse_ok_iff hlen).mp h
  have hall : ∀ (j : Nat) (ast : ObjAst), file.objects[j]? = some ast →
      r.objects[j]? = some (objMeaning (countsBefore file.objects j) ast) :=
    fun j ast ha => (parsed_object hlen hf h ha).1
  obtain ⟨rest, hl, ho⟩ := hf
  obtain ⟨head, e, hc⟩ := libs_cut hl
  obtain ⟨hn1, hn2⟩ := libs_rest hl
  have hlen' : r.objects.length = file.objects.length := by
    rw [hr]; exact objectsMeaning_length _ _
  have hnames : r.objects.map Object.name = file.objects.map ObjAst.name := by
    rw [hr]
    show (objectsMeaning _ _).map _ = _
    generalize ({} : Counts) = lo
    induction file.objects generalizing lo with
    | nil => rfl
    | cons o os ih => simp [objectsMeaning, objMeaning, ih]
  have hlib : Libs head r.material_libraries [] := by rw [hr]; exact hc
  have key : ∃ (implicit : List Tok) (ss : List (Bytes × List Tok)),
      rest = implicit ++ ss.flatMap sectionToks ∧
      (∀ t ∈ implicit.head?, t ≠ nl ∧ t ≠ b!"mtllib" ∧ t ≠ b!"o") ∧
      Sections cfg {} ((if implicit = [] then [] else [([], implicit)]) ++ ss) file.objects := by
    generalize file.objects = objs at ho
    cases ho with
    | done => exact ⟨[], [], rfl, by simp, .nil⟩
    | @obj lo name items objs toks mid rest' hh hb hn ho =>
      cases hh with
      | @implicit t tl ht =>
        obtain ⟨ss, rfl, hs⟩ := named_sections ho (body_end hb)
        obtain ⟨body, e', hc⟩ := body_cut hb
        simp only [List.head?_cons, ne_eq, Option.some.injEq] at hn1 hn2
        cases body with
        | nil =>
          exfalso
          obtain ⟨rfl, -⟩ := body_nil hc
          exact hn (by simp [Bare])
        | cons t' body =>
          have et : t = t' := by
            simp only [List.cons_append, List.cons.injEq] at e'
            exact e'.1
          subst et
          refine ⟨t :: body, ss, e', ?_, ?_⟩
          · intro x hx
            simp only [List.head?_cons, Option.mem_def, Option.some.injEq] at hx
            subst hx
            exact ⟨hn1, hn2, ht⟩
          · simpa using Sections.cons hc hn hs
      | named =>
        obtain ⟨ss, e', hs⟩ := named_sections (Objects.obj .named hb hn ho) (.inr rfl)
        exact ⟨[], ss, by simpa using e', by simp, by simpa using hs⟩
  obtain ⟨implicit, ss, e', hi, hs⟩ := key
  refine ⟨head, implicit, ss, file.objects, by rw [e, e'], hlib, hi, hs, ?_, hlen', hall⟩
  rw [hnames]
  have hsec : ∀ {lo ss objs}, Sections cfg lo ss objs → objs.map ObjAst.name = ss.map Prod.fst := by
    intro lo ss objs h
    induction h with
    | nil => rfl
    | cons _ _ _ ih => simp [ih]
  rw [hsec hs]
  split <;> simp

/-- **C23** Nothing leaks from one object into the next: apart from the numbers in its
elements, an object is what its own statements denote by themselves. -/
theorem C23_no_leak (lo : Counts) (ast : ObjAst) :
    let o : Object F := objMeaning lo ast
    let alone : Object F := objMeaning {} ast
    o.name = alone.name ∧ o.vertex_set = alone.vertex_set ∧
    o.texture_vertex_set = alone.texture_vertex_set ∧ o.normal_vertex_set = alone.normal_vertex_set ∧
    o.group_set = alone.group_set ∧ o.smoothing_group_set = alone.smoothing_group_set ∧
    o.shape_set = alone.shape_set ∧ o.geometry_set = alone.geometry_set ∧
    o.element_set.length = alone.element_set.length := by
  have step : ∀ (it : Item) (a b : Acc F),
      (a.vertices = b.vertices ∧ a.textures = b.textures ∧ a.normals = b.normals ∧ a.groups = b.groups ∧
        a.inGroups = b.inGroups ∧ a.smoothing = b.smoothing ∧ a.inSmoothing = b.inSmoothing ∧
        a.elements.length = b.elements.length ∧ a.shapes = b.shapes ∧ a.geometries = b.geometries ∧
        a.material = b.material ∧ a.ofMaterial = b.ofMaterial) →
      let a' := a.step lo it
      let b' := b.step {} it
      (a'.vertices = b'.vertices ∧ a'.textures = b'.textures ∧ a'.normals = b'.normals ∧ a'.groups = b'.groups ∧
        a'.inGroups = b'.inGroups ∧ a'.smoothing = b'.smoothing ∧ a'.inSmoothing = b'.inSmoothing ∧
        a'.elements.length = b'.elements.length ∧ a'.shapes = b'.shapes ∧ a'.geometries = b'.geometries ∧
        a'.material = b'.material ∧ a'.ofMaterial = b'.ofMaterial) := by
    intro it a b hab
    obtain ⟨h1, h2, h3, h4, h5, h6, h7, h8, h9, h10, h11, h12⟩ := hab
    have hel : (it.elements lo).length = (it.elements {}).length := by
      rw [elements_length, elements_length]
    obtain ⟨av, at', an, ag, aig, as', ais, ae, ash, age, am, aom⟩ := a
    obtain ⟨bv, bt, bn, bg, big, bs, bis, be, bsh, bge, bm, bom⟩ := b
    dsimp only at h1 h2 h3 h4 h5 h6 h7 h8 h9 h10 h11 h12
    subst h1 h2 h3 h4 h5 h6 h7 h9 h10 h11 h12
    by_cases he : it.isElement = true
    · rw [step_element_eq _ _ he, step_element_eq _ _ he]
      simp only [Acc.defaults, Acc.addElements]
      by_cases hg : ag = [] <;> by_cases hs : as' = [] <;> simp [hg, hs, h8, hel]
    · cases it with
      | p => exact absurd rfl he
      | l => exact absurd rfl he
      | f => exact absurd rfl he
      | usemtl name =>
        simp only [Acc.step]
        by_cases hm : aom = [] <;> simp [hm, h8]
      | _ => simp [Acc.step, h8]
  have fold : ∀ (items : List Item) (a b : Acc F),
      (a.vertices = b.vertices ∧ a.textures = b.textures ∧ a.normals = b.normals ∧ a.groups = b.groups ∧
        a.inGroups = b.inGroups ∧ a.smoothing = b.smoothing ∧ a.inSmoothing = b.inSmoothing ∧
        a.elements.length = b.elements.length ∧ a.shapes = b.shapes ∧ a.geometries = b.geometries ∧
        a.material = b.material ∧ a.ofMaterial = b.ofMaterial) →
      let a' := items.foldl (Acc.step lo) a
      let b' := items.foldl (Acc.step {}) b
      (a'.vertices = b'.vertices ∧ a'.textures = b'.textures ∧ a'.normals = b'.normals ∧ a'.groups = b'.groups ∧
        a'.inGroups = b'.inGroups ∧ a'.smoothing = b'.smoothing ∧ a'.inSmoothing = b'.inSmoothing ∧
        a'.elements.length = b'.elements.length ∧ a'.shapes = b'.shapes ∧ a'.geometries = b'.geometries ∧
        a'.material = b'.material ∧ a'.ofMaterial = b'.ofMaterial) := by
    intro items
    induction items with
    | nil => exact fun a b h => h
    | cons it items ih => exact fun a b h => ih _ _ (step it a b h)
  obtain ⟨h1, h2, h3, h4, h5, h6, h7, h8, h9, h10, h11, h12⟩ :=
    fold ast.items {} {} ⟨rfl, rfl, rfl, rfl, rfl, rfl, rfl, rfl, rfl, rfl, rfl, rfl⟩
  exact ⟨rfl, h1, h2, h3, h4, h6, h9, by simp only [objMeaning, h10, h11, h12], h8⟩

/-- The first object leaves a group, a smoothing group and a material in force; the second
does not see them. -/
example : Obj.parse debug b!"g a\ns 3\nusemtl m\no x\nv 0 0 0\np 1\n" = .ok (⟨[],
    [⟨[], [], [], [], [⟨b!"a"⟩], [⟨3⟩], [], [], [⟨some b!"m", []⟩]⟩,
     ⟨b!"x", [⟨b!"0", b!"0", b!"0", b!"1"⟩], [], [], [⟨b!"default"⟩], [⟨0⟩], [.Point (.V 0)],
       [⟨0, [0], 0⟩], [⟨none, [0]⟩]⟩]⟩ : ObjectSet Bytes) := by decide +kernel

/-! ## C41 -/

theorem token_clean {t : Tok} (h : t ∈ tokens input) :
    Word t ∨ t = [10] ∨ t = [13] := by
  rcases token_shape byteAlphabet_disjoint input t h with ⟨c, hc, rfl⟩ | ⟨h1, h2⟩
  · simp only [byteAlphabet, Bool.or_eq_true, beq_iff_eq] at hc
    rcases hc with rfl | rfl
    · exact .inr (.inl rfl)
    · exact .inr (.inr rfl)
  · refine .inl ⟨h1, fun c hc => ?_⟩
    have := h2 c hc
    simp only [Alphabet.ordinary, byteAlphabet, Bool.not_or, Bool.and_eq_true, Bool.not_eq_true',
      beq_eq_false_iff_ne] at this
    tauto

theorem cr_mem (h : [13] ∈ tokens input) : 13 ∈ input := by
  obtain ⟨pre, post, e⟩ := List.append_of_mem h
  obtain ⟨a, b, h1, -, -⟩ := token_position byteAlphabet_disjoint e
  rw [h1]
  simp

theorem stmt_words {lo hi : Counts} {it toks rest} (h : Stmt cfg lo hi it toks rest) :
    (∀ n ∈ it.names, n ∈ toks ∧ n ≠ nl) ∧ (∀ n, it = .usemtl n → [b!"usemtl", n] <:+: toks) := by
  cases h with
  | @g names mid _ h1 _ =>
    refine ⟨fun n hn => ⟨by simp [Item.names] at hn; simp [hn], ?_⟩, fun n hn => by cases hn⟩
    rintro rfl
    exact h1 hn
  | @usemtl name =>
    refine ⟨fun n hn => by simp [Item.names] at hn, fun n hn => ?_⟩
    cases hn
    exact ⟨[], rest, by simp⟩
  | _ => exact ⟨fun n hn => by simp [Item.names] at hn, fun n hn => by cases hn⟩

theorem body_words {lo hi : Counts} {items toks rest} (h : Body cfg lo hi items toks rest) :
    ∀ it ∈ items, (∀ n ∈ it.names, n ∈ toks ∧ n ≠ nl) ∧ (∀ n, it = .usemtl n → [b!"usemtl", n] <:+: toks) := by
  induction h with
  | done => simp
  | blank _ ih =>
    intro it hit
    obtain ⟨h1, h2⟩ := ih it hit
    exact ⟨fun n hn => ⟨List.mem_cons_of_mem _ (h1 n hn).1, (h1 n hn).2⟩,
      fun n hn => (h2 n hn).trans (List.suffix_cons _ _).isInfix⟩
  | stmt h hb ih =>
    intro it' hit
    rcases List.mem_cons.mp hit with rfl | hit
    · exact stmt_words h
    · obtain ⟨h1, h2⟩ := ih it' hit
      have hs := stmt_suffix h
      exact ⟨fun n hn => ⟨hs.subset (h1 n hn).1, (h1 n hn).2⟩, fun n hn => (h2 n hn).trans hs.isInfix⟩

theorem objects_words {lo : Counts} {objs toks} (h : Objects cfg lo objs toks) :
    ∀ o ∈ objs, (o.name = [] ∨ [b!"o", o.name, nl] <:+: toks) ∧
      ∀ it ∈ o.items, (∀ n ∈ it.names, n ∈ toks ∧ n ≠ nl) ∧ (∀ n, it = .usemtl n → [b!"usemtl", n] <:+: toks) := by
  induction h with
  | done => simp
  | @obj lo name items objs toks mid rest hh hb hn ho ih =>
    have hs := header_suffix hh
    intro o hmem
    rcases List.mem_cons.mp hmem with rfl | hmem
    · refine ⟨?_, fun it hit => ?_⟩
      · cases hh with
        | implicit => exact .inl rfl
        | named => exact .inr ⟨[], mid, by simp⟩
      · obtain ⟨h1, h2⟩ := body_words hb it hit
        exact ⟨fun n hn => ⟨hs.subset (h1 n hn).1, (h1 n hn).2⟩, fun n hn => (h2 n hn).trans hs.isInfix⟩
    · obtain ⟨h0, h'⟩ := ih o hmem
      have hs' := (body_suffix hb).trans hs
      refine ⟨h0.imp_right fun h => h.trans hs'.isInfix, fun it hit => ?_⟩
      obtain ⟨h1, h2⟩ := h' it hit
      exact ⟨fun n hn => ⟨hs'.subset (h1 n hn).1, (h1 n hn).2⟩, fun n hn => (h2 n hn).trans hs'.isInfix⟩

theorem libs_words {toks libs rest} (h : Libs toks libs rest) : ∀ n ∈ libs, n ∈ toks ∧ n ≠ nl := by
  induction h with
  | done => simp
  | blank _ ih => exact fun n hn => ⟨List.mem_cons_of_mem _ (ih n hn).1, (ih n hn).2⟩
  | @line names mid toks libs rest h1 h2 h3 ih =>
    intro n hn
    rcases List.mem_append.mp hn with hn | hn
    · exact ⟨by simp [hn], by rintro rfl; exact h1 hn⟩
    · refine ⟨?_, (ih n hn).2⟩
      have := (ih n hn).1
      rcases h2 with rfl | ⟨rfl, rfl⟩
      · simp [this]
      · cases this

/-- Where the names of an object come from. -/
def NamesFrom (items : List Item) (a : Acc F) : Prop :=
  (∀ g ∈ a.groups, g.name = b!"default" ∨ ∃ it ∈ items, g.name ∈ it.names) ∧
  (∀ n, a.material = some n → Item.usemtl n ∈ items) ∧
  (∀ g ∈ a.geometries, ∀ n, g.material_name = some n → Item.usemtl n ∈ items)

theorem namesFrom_step (lo : Counts) {items : List Item} {a : Acc F} (h : NamesFrom items a) (it : Item) :
    NamesFrom (items ++ [it]) (a.step lo it) := by
  obtain ⟨h1, h2, h3⟩ := h
  have h1' : ∀ g ∈ a.groups, g.name = b!"default" ∨ ∃ it' ∈ items ++ [it], g.name ∈ it'.names := by
    intro g hg
    rcases h1 g hg with h | ⟨it', hit, hn⟩
    · exact .inl h
    · exact .inr ⟨it', by simp [hit], hn⟩
  have h2' : ∀ n, a.material = some n → Item.usemtl n ∈ items ++ [it] := fun n hn => by simp [h2 n hn]
  have h3' : ∀ g ∈ a.geometries, ∀ n, g.material_name = some n → Item.usemtl n ∈ items ++ [it] :=
    fun g hg n hn => by simp [h3 g hg n hn]
  by_cases he : it.isElement = true
  · rw [step_element_eq _ _ he]
    refine ⟨?_, ?_, ?_⟩
    · intro g hg
      have : g ∈ a.groups ∨ g = ⟨b!"default"⟩ := by
        by_cases e1 : a.groups = [] <;> by_cases e2 : a.smoothing = [] <;>
          simp [Acc.addElements, Acc.defaults, e1, e2] at hg <;> simp [hg]
      rcases this with h | rfl
      · exact h1' g h
      · exact .inl rfl
    · intro n hn
      apply h2'
      by_cases e1 : a.groups = [] <;> by_cases e2 : a.smoothing = [] <;>
        simp [Acc.addElements, Acc.defaults, e1, e2] at hn <;> simp [hn]
    · intro g hg
      apply h3'
      by_cases e1 : a.groups = [] <;> by_cases e2 : a.smoothing = [] <;>
        simp [Acc.addElements, Acc.defaults, e1, e2] at hg <;> simp [hg]
  · cases it with
    | p => exact absurd rfl he
    | l => exact absurd rfl he
    | f => exact absurd rfl he
    | usemtl name =>
      refine ⟨?_, ?_, ?_⟩
      · intro g hg
        apply h1'
        by_cases e : a.ofMaterial = [] <;> simpa [Acc.step, e] using hg
      · intro n hn
        have : name = n := by by_cases e : a.ofMaterial = [] <;> simpa [Acc.step, e] using hn
        simp [this]
      · intro g hg n hn
        by_cases e : a.ofMaterial = []
        · simp only [Acc.step, e, if_true] at hg
          exact h3' g hg n hn
        · simp only [Acc.step, e, if_false, List.mem_append, List.mem_singleton] at hg
          rcases hg with hg | rfl
          · exact h3' g hg n hn
          · exact h2' n hn
    | g names =>
      refine ⟨?_, h2', h3'⟩
      intro x hx
      simp only [Acc.step, List.mem_append, List.mem_map] at hx
      rcases hx with hx | ⟨n, hn, rfl⟩
      · exact h1' x hx
      · exact .inr ⟨.g names, by simp, hn⟩
    | _ => exact ⟨h1', h2', h3'⟩

theorem namesFrom_fold (lo : Counts) (pre items : List Item) {a : Acc F} (h : NamesFrom pre a) :
    NamesFrom (pre ++ items) (items.foldl (Acc.step lo) a) := by
  induction items generalizing pre a with
  | nil => simpa using h
  | cons it items ih =>
    have := ih (pre ++ [it]) (namesFrom_step lo h it)
    simpa using this

/-- **C41** (what holds) Group and library names are clean words, or a single carriage return
(if the file has one).  Material names and object names are, in addition, allowed to be a
single newline; that happens only if a `usemtl` or `o` is directly followed by the end of
its line.  An object without `o` statement has the empty name. -/
theorem C41_names_partial (hlen : input.length < 2 ^ 63) {r : ObjectSet F} (h : Obj.parse cfg input = .ok r) :
    (∀ n ∈ r.material_libraries, Word n ∨ (n = [13] ∧ 13 ∈ input)) ∧
    ∀ o ∈ r.objects,
      (∀ g ∈ o.group_set, Word g.name ∨ (g.name = [13] ∧ 13 ∈ input)) ∧
      (∀ g ∈ o.geometry_set, ∀ n, g.material_name = some n →
        Word n ∨ (n = [13] ∧ 13 ∈ input) ∨ (n = [10] ∧ [b!"usemtl", nl] <:+: tokens input)) ∧
      (o.name = [] ∨ Word o.name ∨ (o.name = [13] ∧ 13 ∈ input) ∨
        (o.name = [10] ∧ [b!"o", nl, nl] <:+: tokens input)) := by
  obtain ⟨file, hf, rfl⟩ := (parse_ok_iff hlen).mp h
  obtain ⟨rest, hl, ho⟩ := hf
  have hs := libs_suffix hl
  refine ⟨fun n hn => ?_, fun o hmem => ?_⟩
  · obtain ⟨h1, h2⟩ := libs_words hl n hn
    rcases token_clean h1 with hc | rfl | rfl
    · exact .inl hc
    · exact absurd rfl h2
    · exact .inr ⟨rfl, cr_mem h1⟩
  · obtain ⟨j, hj, hjo⟩ := List.mem_iff_getElem.mp hmem
    have hlen' : (meaning file : ObjectSet F).objects.length = file.objects.length :=
      objectsMeaning_length _ _
    have ha : file.objects[j]? = some file.objects[j] := List.getElem?_eq_getElem (by omega)
    have h1 := (parsed_object (F := F) hlen ⟨rest, hl, ho⟩ h ha).1
    rw [List.getElem?_eq_getElem hj, hjo] at h1
    simp only [Option.some.injEq] at h1
    subst h1
    obtain ⟨hname, hw⟩ := objects_words ho _ (List.getElem_mem (by omega : j < file.objects.length))
    generalize file.objects[j]'(by omega) = ast at hname hw
    obtain ⟨hg, hm, hge⟩ := namesFrom_fold (F := F) (countsBefore file.objects j) [] ast.items (a := {})
      ⟨by simp, by simp, by simp⟩
    rw [List.nil_append] at hg hm hge
    refine ⟨fun g hgm => ?_, fun g hgm n hn => ?_, ?_⟩
    · rcases hg g hgm with hd | ⟨it, hit, hn⟩
      · left
        rw [hd]
        unfold Word
        decide
      · obtain ⟨h1, h2⟩ := (hw it hit).1 _ hn
        rcases token_clean (hs.subset h1) with hc | hc | hc
        · exact .inl hc
        · exact absurd hc h2
        · exact .inr ⟨hc, cr_mem (hc ▸ hs.subset h1)⟩
    · have hu : Item.usemtl n ∈ ast.items := by
        simp only [objMeaning, List.mem_append, List.mem_singleton] at hgm
        rcases hgm with hgm | rfl
        · exact hge g hgm n hn
        · exact hm n hn
      have hi := ((hw _ hu).2 n rfl).trans hs.isInfix
      have hmem : n ∈ tokens input := hi.subset (by simp)
      rcases token_clean hmem with hc | hc | hc
      · exact .inl hc
      · exact .inr (.inr ⟨hc, by rw [hc] at hi; exact hi⟩)
      · exact .inr (.inl ⟨hc, cr_mem (hc ▸ hmem)⟩)
    · show ast.name = [] ∨ Word ast.name ∨ _
      rcases hname with hname | hname
      · exact .inl hname
      · have hi := hname.trans hs.isInfix
        have hmem : ast.name ∈ tokens input := hi.subset (by simp)
        rcases token_clean hmem with hc | hc | hc
        · exact .inr (.inl hc)
        · exact .inr (.inr (.inr ⟨hc, by rw [hc] at hi; exact hi⟩))
        · exact .inr (.inr (.inl ⟨hc, cr_mem (hc ▸ hmem)⟩))

/-- **C41** is false: a `usemtl` or `o` at the end of a line takes the newline as its name. -/
theorem C41_refuted :
    Obj.parse debug b!"usemtl
" = .ok (⟨[], [⟨[], [], [], [], [], [], [], [], [⟨some b!"\n", []⟩]⟩]⟩ : ObjectSet Bytes) ∧
    Obj.parse debug b!"o\n\nusemtl a
" =
      .ok (⟨[], [⟨b!"\n", [], [], [], [], [], [], [], [⟨some b!"a", []⟩]⟩]⟩ : ObjectSet Bytes) := by
  decide +kernel

/-! ## C45 -/

/-- **C45** (for objects all of whose `g` statements have names) Every shape entry has a group. -/
theorem C45_groups_partial (hlen : input.length < 2 ^ 63) {r : ObjectSet F} (h : Obj.parse cfg input = .ok r)
    {file : FileAst} (hf : FileOk cfg (tokens input) file) {j : Nat} {ast : ObjAst}
    (ha : file.objects[j]? = some ast) (hg : Item.g [] ∉ ast.items) :
    ∃ o, r.objects[j]? = some o ∧ ∀ e ∈ o.shape_set, e.groups ≠ [] := by
  have ho := (parsed_object hlen hf h ha).1
  refine ⟨_, ho, fun e he => ?_⟩
  obtain ⟨i, hi, rfl⟩ := List.mem_iff_getElem.mp he
  have hcard := (C12_shape_entries hlen h _ (List.mem_of_getElem? ho)).1
  rw [element_set_length] at hcard
  obtain ⟨pre, it, post, hsplit, hel, h1, h2⟩ := find_statement (items := ast.items) (i := i) (by omega)
  obtain ⟨o', ho', e', he', hn⟩ := C15_groups_partial hlen hf h ha hsplit hel
    (by intro hc; exact hg (by rw [hsplit]; simp [hc])) h1 h2
  rw [ho] at ho'
  simp only [Option.some.injEq] at ho'
  subst ho'
  rw [List.getElem?_eq_getElem hi] at he'
  simp only [Option.some.injEq] at he'
  subst he'
  intro hnil
  rw [hnil] at hn
  simp only [List.map_nil] at hn
  have hn' := List.map_eq_nil_iff.mp hn.symm
  generalize hlast : (pre.filterMap fun | .g names => some names | _ => none).getLast? = last at hn'
  cases last with
  | none => simp at hn'
  | some names =>
    simp only [Option.getD_some] at hn'
    subst hn'
    have := List.mem_of_getLast? hlast
    obtain ⟨x, hx, hxe⟩ := List.mem_filterMap.mp this
    cases x <;> simp at hxe
    subst hxe
    exact hg (by rw [hsplit]; simp [hx])

/-- **C45** is false in general: see `C15_refuted`. -/
theorem C45_refuted : ∃ (input : Bytes) (r : ObjectSet Bytes), Obj.parse debug input = .ok r ∧
    ∃ o ∈ r.objects, ∃ e ∈ o.shape_set, e.groups = [] := by
  obtain ⟨input, r, h1, -, -, h2⟩ := C15_refuted
  exact ⟨input, r, h1, h2⟩

/-! ## C46 -/

/-- Reading on after the objects of `toks`: for anything `Q` that may be concluded by reading
one more object first. -/
theorem objects_append_gen {Q : Counts → List Tok → Prop}
    (hQ : ∀ {lo name items toks mid rest}, Header toks name mid → Body cfg lo lo items mid rest →
      ¬ Bare items → Q (lo + countsOf items) rest → Q lo toks)
    {lo : Counts} {objs toks} (h : Objects cfg lo objs toks) (hne : toks ≠ []) {X : List Tok} (hX : BodyEnd X)
    (h' : Q (lo + countsOf (objs.flatMap ObjAst.items)) X) : Q lo (toks ++ nl :: X) := by
  induction h with
  | done => exact absurd rfl hne
  | @obj lo name items objs toks mid rest hh hb hn ho ih =>
    have e : lo + countsOf ((⟨name, items⟩ :: objs).flatMap ObjAst.items) =
        lo + countsOf items + countsOf (objs.flatMap ObjAst.items) := by
      rw [List.flatMap_cons, countsOf_append, counts_add_assoc]
    rw [e] at h'
    by_cases hr : rest = []
    · subst hr
      cases ho with
      | done =>
        refine hQ (header_append hh _) (body_append_nl hb hX) hn ?_
        have e0 : lo + countsOf items + countsOf (([] : List ObjAst).flatMap ObjAst.items) =
            lo + countsOf items := by
          simp [countsOf, counts_add]
        rw [e0] at h'
        exact h'
      | obj hh' => cases hh'
    · exact hQ (header_append hh _) (body_append hb hr _) hn (ih hr h')

theorem file_append_gen {Q : Counts → List Tok → Prop}
    (hQ : ∀ {lo name items toks mid rest}, Header toks name mid → Body cfg lo lo items mid rest →
      ¬ Bare items → Q (lo + countsOf items) rest → Q lo toks)
    {toks} {file : FileAst} (h : FileOk cfg toks file) {X : List Tok} (hX : BodyEnd X)
    (h' : Q (countsOf (file.objects.flatMap ObjAst.items)) X) :
    ∃ rest, Libs (toks ++ nl :: X) file.libs rest ∧ Q {} rest := by
  obtain ⟨rest, hl, ho⟩ := h
  by_cases hr : rest = []
  · subst hr
    refine ⟨X, libs_append_nl hl ?_ ?_, ?_⟩
    · rcases hX with rfl | h
      · simp
      · rw [h]; decide
    · rcases hX with rfl | h
      · simp
      · rw [h]; decide
    · generalize file.objects = objs at ho h'
      cases ho with
      | done => exact h'
      | obj hh => cases hh
  · exact ⟨rest ++ nl :: X, libs_append hl hr _, objects_append_gen hQ ho hr hX (by rwa [counts_zero_add])⟩

/-- How many vertices, texture vertices and normals an object set has. -/
def totals (r : ObjectSet F) : Counts where
  v := (r.objects.map fun o => o.vertex_set.length).sum
  vt := (r.objects.map fun o => o.texture_vertex_set.length).sum
  vn := (r.objects.map fun o => o.normal_vertex_set.length).sum

theorem totals_meaning (file : FileAst) :
    totals (meaning file : ObjectSet F) = countsOf (file.objects.flatMap ObjAst.items) := by
  have key : ∀ (objs : List ObjAst) (lo : Counts),
      totals (⟨[], objectsMeaning lo objs⟩ : ObjectSet F) = countsOf (objs.flatMap ObjAst.items) := by
    intro objs
    induction objs with
    | nil => intro lo; rfl
    | cons o os ih =>
      intro lo
      have hd := data_of (F := F) lo o.items
      have h1 := ih (lo + countsOf o.items)
      rw [List.flatMap_cons, countsOf_append, ← h1, countsOf_eq (F := F) o.items, counts_add]
      simp only [totals, objectsMeaning, List.map_cons, List.sum_cons, objMeaning, hd.vertices, hd.textures,
        hd.normals, countsOf_eq (F := F) o.items]
  exact key file.objects {}

theorem objectsMeaning_append (lo : Counts) (a b : List ObjAst) :
    (objectsMeaning lo (a ++ b) : List (Object F)) =
      objectsMeaning lo a ++ objectsMeaning (lo + countsOf (a.flatMap ObjAst.items)) b := by
  induction a generalizing lo with
  | nil => simp [objectsMeaning, countsOf, counts_add]
  | cons o os ih =>
    simp only [List.cons_append, objectsMeaning, ih, List.flatMap_cons, countsOf_append, counts_add_assoc]

/-- **C46** Appending an object to an accepted file: the objects already there stay, and
exactly the new one is added. -/
theorem C46_append_object {b : Bytes} (hlen : (input ++ 10 :: b).length < 2 ^ 63) {r : ObjectSet F}
    (h : Obj.parse cfg input = .ok r) {name : Bytes} {body : List Tok} {items : List Item}
    (hb : tokens b = b!"o" :: name :: nl :: body) (hbody : Body cfg (totals r) (totals r) items body [])
    (hne : ∃ it ∈ items, it.isElement = true ∨ it.isUsemtl = true) :
    Obj.parse cfg (input ++ 10 :: b) =
      .ok ⟨r.material_libraries, r.objects ++ [objMeaning (totals r) ⟨name, items⟩]⟩ := by
  have hl : input.length < 2 ^ 63 := by simp at hlen; omega
  obtain ⟨file, hf, rfl⟩ := (parse_ok_iff hl).mp h
  rw [totals_meaning] at hbody ⊢
  have hn : ¬ Bare items := by
    obtain ⟨it, hit, hi⟩ := hne
    intro hc
    have := hc it hit
    rcases hi with hi | hi <;> simp [hi] at this
  have h1 := file_append hf (X := tokens b) (.inr (by rw [hb]; rfl))
    (objs' := [⟨name, items⟩]) (by rw [hb]; exact .obj .named hbody hn .done)
  rw [← tokens_append_nl] at h1
  rw [parse_ok_of hlen h1]
  simp only [meaning, objectsMeaning_append, counts_zero_add, objectsMeaning]

/-- **C46** Whatever is appended from a line with an `o` on: if the file is still accepted,
the objects and libraries already there are unchanged, and there are new objects. -/
theorem C46_prefix_kept {b : Bytes} (hlen : (input ++ 10 :: b).length < 2 ^ 63) {r r' : ObjectSet F}
    (h : Obj.parse cfg input = .ok r) (hb : (tokens b).head? = some b!"o")
    (h' : Obj.parse cfg (input ++ 10 :: b) = .ok r') :
    r'.material_libraries = r.material_libraries ∧ ∃ more, more ≠ [] ∧ r'.objects = r.objects ++ more := by
  have hl : input.length < 2 ^ 63 := by simp at hlen; omega
  obtain ⟨file, hf, rfl⟩ := (parse_ok_iff hl).mp h
  rcases objects_total cfg (countsOf (file.objects.flatMap ObjAst.items)) (tokens b) with
    ⟨objs, ho⟩ | ⟨k, m, rest, ho⟩ | ⟨x, ho⟩
  · have h1 := file_append hf (X := tokens b) (.inr hb) ho
    rw [← tokens_append_nl, ] at h1
    rw [parse_ok_of hlen h1] at h'
    simp only [Out.ok.injEq] at h'
    rw [← h']
    refine ⟨rfl, objectsMeaning (countsOf (file.objects.flatMap ObjAst.items)) objs, ?_, ?_⟩
    · intro hc
      have := congrArg List.length hc
      rw [objectsMeaning_length, List.length_nil, List.length_eq_zero_iff] at this
      subst this
      generalize tokens b = X at ho hb
      cases ho
      cases hb
    · simp only [meaning, objectsMeaning_append, counts_zero_add]
  · obtain ⟨mid, h1, h2⟩ := file_append_gen (Q := fun lo toks => ObjectsErr cfg lo toks k m rest)
      (fun a b c d => .later a b c d) hf (X := tokens b) (.inr hb) ho
    rw [← tokens_append_nl] at h1
    rw [parse_err_of hlen ⟨_, _, h1, h2⟩] at h'
    cases h'
  · obtain ⟨mid, h1, h2⟩ := file_append_gen (Q := fun lo toks => ObjectsPanic cfg lo toks x)
      (fun a b c d => .later a b c d) hf (X := tokens b) (.inr hb) ho
    rw [← tokens_append_nl] at h1
    rw [parse_panic_of hlen ⟨_, _, h1, h2⟩] at h'
    cases h'

example : Obj.parse debug b!"v 0 0 0\np 1
" = .ok (⟨[], [⟨[], [⟨b!"0", b!"0", b!"0", b!"1"⟩], [], [],
      [⟨b!"default"⟩], [⟨0⟩], [.Point (.V 0)], [⟨0, [0], 0⟩], [⟨none, [0]⟩]⟩]⟩ : ObjectSet Bytes) ∧
    Obj.parse debug (b!"v 0 0 0\np 1
" ++ 10 :: b!"o x\nv 1 1 1\np 2
") = .ok (⟨[], [
      ⟨[], [⟨b!"0", b!"0", b!"0", b!"1"⟩], [], [],
        [⟨b!"default"⟩], [⟨0⟩], [.Point (.V 0)], [⟨0, [0], 0⟩], [⟨none, [0]⟩]⟩,
      ⟨b!"x", [⟨b!"1", b!"1", b!"1", b!"1"⟩], [], [],
        [⟨b!"default"⟩], [⟨0⟩], [.Point (.V 0)], [⟨0, [0], 0⟩], [⟨none, [0]⟩]⟩]⟩ : ObjectSet Bytes) := by
  decide +kernel

end Verif.Props
